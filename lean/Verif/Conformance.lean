import Verif.Urn
/-!
GENERATED by tools/conformance.py from /repo/tables_test.go.

The project's own test tables, run on the model: *tests* of its fidelity to the code (what the
Go tests assert in machine_test.go:19-47), not proofs of any property.
-/
namespace Urn.Conformance

/-- One row of /repo/tables_test.go. -/
structure Row where
  input : Bytes
  ok : Bool
  pre : Bytes
  id : Bytes
  ss : Bytes
  r : Bytes
  str : Bytes
  norm : Bytes
  estr : String
  scim : Bool

/-- machine_test.go:19-47 -/
def check (mode : ParsingMode) (t : Row) : Bool :=
  match newMachine [withParsingMode mode] with
  | .ok m => match m.parse t.input with
    | .ok r => match r.err with
      | some e => !t.ok && r.urn == none && e.text == t.estr && r.m.error == some e && r.m.data == t.input
      | none => match r.urn with
        | none => false
        | some u => t.ok && u.prefix == t.pre && u.ID == t.id && u.SS == t.ss && u.string == t.str
            && (u.normalize id).string == t.norm && r.m.data == t.input
            && (mode != RFC8141Only || (u.rComponent == t.r && u.rfc == .RFC8141))
            && (mode != RFC7643Only || t.scim == u.isSCIM)
    | _ => false
  | _ => false

/-- /repo/tables_test.go `urnlexTestCases` -/
def urnlexTestCases : List Row := [
  ⟨[117, 114, 110, 58, 108, 101, 120, 58, 105, 116, 58, 115, 116, 97, 116, 111, 58, 108, 101, 103, 103, 101, 58, 50, 48, 48, 51, 45, 48, 57, 45, 50, 49, 59, 52, 53, 54], true, [117, 114, 110], [108, 101, 120], [105, 116, 58, 115, 116, 97, 116, 111, 58, 108, 101, 103, 103, 101, 58, 50, 48, 48, 51, 45, 48, 57, 45, 50, 49, 59, 52, 53, 54], [], [117, 114, 110, 58, 108, 101, 120, 58, 105, 116, 58, 115, 116, 97, 116, 111, 58, 108, 101, 103, 103, 101, 58, 50, 48, 48, 51, 45, 48, 57, 45, 50, 49, 59, 52, 53, 54], [117, 114, 110, 58, 108, 101, 120, 58, 105, 116, 58, 115, 116, 97, 116, 111, 58, 108, 101, 103, 103, 101, 58, 50, 48, 48, 51, 45, 48, 57, 45, 50, 49, 59, 52, 53, 54], "", false⟩,
  ⟨[117, 114, 110, 58, 108, 101, 120, 58, 102, 114, 58, 101, 116, 97, 116, 58, 108, 111, 105, 115, 58, 50, 48, 48, 52, 45, 49, 50, 45, 48, 54, 59, 51, 50, 49], true, [117, 114, 110], [108, 101, 120], [102, 114, 58, 101, 116, 97, 116, 58, 108, 111, 105, 115, 58, 50, 48, 48, 52, 45, 49, 50, 45, 48, 54, 59, 51, 50, 49], [], [117, 114, 110, 58, 108, 101, 120, 58, 102, 114, 58, 101, 116, 97, 116, 58, 108, 111, 105, 115, 58, 50, 48, 48, 52, 45, 49, 50, 45, 48, 54, 59, 51, 50, 49], [117, 114, 110, 58, 108, 101, 120, 58, 102, 114, 58, 101, 116, 97, 116, 58, 108, 111, 105, 115, 58, 50, 48, 48, 52, 45, 49, 50, 45, 48, 54, 59, 51, 50, 49], "", false⟩,
  ⟨[117, 114, 110, 58, 108, 101, 120, 58, 101, 115, 58, 101, 115, 116, 97, 100, 111, 58, 108, 101, 121, 58, 50, 48, 48, 50, 45, 48, 55, 45, 49, 50, 59, 49, 50, 51], true, [117, 114, 110], [108, 101, 120], [101, 115, 58, 101, 115, 116, 97, 100, 111, 58, 108, 101, 121, 58, 50, 48, 48, 50, 45, 48, 55, 45, 49, 50, 59, 49, 50, 51], [], [117, 114, 110, 58, 108, 101, 120, 58, 101, 115, 58, 101, 115, 116, 97, 100, 111, 58, 108, 101, 121, 58, 50, 48, 48, 50, 45, 48, 55, 45, 49, 50, 59, 49, 50, 51], [117, 114, 110, 58, 108, 101, 120, 58, 101, 115, 58, 101, 115, 116, 97, 100, 111, 58, 108, 101, 121, 58, 50, 48, 48, 50, 45, 48, 55, 45, 49, 50, 59, 49, 50, 51], "", false⟩,
  ⟨[117, 114, 110, 58, 108, 101, 120, 58, 99, 104, 59, 103, 108, 97, 114, 117, 115, 58, 114, 101, 103, 105, 101, 114, 101, 58, 101, 114, 108, 97, 115, 115, 58, 50, 48, 48, 55, 45, 49, 48, 45, 49, 53, 59, 57, 54, 51], true, [117, 114, 110], [108, 101, 120], [99, 104, 59, 103, 108, 97, 114, 117, 115, 58, 114, 101, 103, 105, 101, 114, 101, 58, 101, 114, 108, 97, 115, 115, 58, 50, 48, 48, 55, 45, 49, 48, 45, 49, 53, 59, 57, 54, 51], [], [117, 114, 110, 58, 108, 101, 120, 58, 99, 104, 59, 103, 108, 97, 114, 117, 115, 58, 114, 101, 103, 105, 101, 114, 101, 58, 101, 114, 108, 97, 115, 115, 58, 50, 48, 48, 55, 45, 49, 48, 45, 49, 53, 59, 57, 54, 51], [117, 114, 110, 58, 108, 101, 120, 58, 99, 104, 59, 103, 108, 97, 114, 117, 115, 58, 114, 101, 103, 105, 101, 114, 101, 58, 101, 114, 108, 97, 115, 115, 58, 50, 48, 48, 55, 45, 49, 48, 45, 49, 53, 59, 57, 54, 51], "", false⟩,
  ⟨[117, 114, 110, 58, 108, 101, 120, 58, 101, 117, 58, 99, 111, 117, 110, 99, 105, 108, 58, 100, 105, 114, 101, 99, 116, 105, 118, 101, 58, 50, 48, 49, 48, 45, 48, 51, 45, 48, 57, 59, 50, 48, 49, 48, 45, 49, 57, 45, 85, 69], true, [117, 114, 110], [108, 101, 120], [101, 117, 58, 99, 111, 117, 110, 99, 105, 108, 58, 100, 105, 114, 101, 99, 116, 105, 118, 101, 58, 50, 48, 49, 48, 45, 48, 51, 45, 48, 57, 59, 50, 48, 49, 48, 45, 49, 57, 45, 85, 69], [], [117, 114, 110, 58, 108, 101, 120, 58, 101, 117, 58, 99, 111, 117, 110, 99, 105, 108, 58, 100, 105, 114, 101, 99, 116, 105, 118, 101, 58, 50, 48, 49, 48, 45, 48, 51, 45, 48, 57, 59, 50, 48, 49, 48, 45, 49, 57, 45, 85, 69], [117, 114, 110, 58, 108, 101, 120, 58, 101, 117, 58, 99, 111, 117, 110, 99, 105, 108, 58, 100, 105, 114, 101, 99, 116, 105, 118, 101, 58, 50, 48, 49, 48, 45, 48, 51, 45, 48, 57, 59, 50, 48, 49, 48, 45, 49, 57, 45, 85, 69], "", false⟩,
  ⟨[117, 114, 110, 58, 108, 101, 120, 58, 101, 117, 58, 99, 111, 117, 110, 99, 105, 108, 58, 100, 105, 114, 101, 99, 116, 105, 118, 101, 58, 50, 48, 49, 48, 45, 48, 51, 45, 48, 57, 59, 50, 48, 49, 48, 45, 49, 57, 45, 85, 69], true, [117, 114, 110], [108, 101, 120], [101, 117, 58, 99, 111, 117, 110, 99, 105, 108, 58, 100, 105, 114, 101, 99, 116, 105, 118, 101, 58, 50, 48, 49, 48, 45, 48, 51, 45, 48, 57, 59, 50, 48, 49, 48, 45, 49, 57, 45, 85, 69], [], [117, 114, 110, 58, 108, 101, 120, 58, 101, 117, 58, 99, 111, 117, 110, 99, 105, 108, 58, 100, 105, 114, 101, 99, 116, 105, 118, 101, 58, 50, 48, 49, 48, 45, 48, 51, 45, 48, 57, 59, 50, 48, 49, 48, 45, 49, 57, 45, 85, 69], [117, 114, 110, 58, 108, 101, 120, 58, 101, 117, 58, 99, 111, 117, 110, 99, 105, 108, 58, 100, 105, 114, 101, 99, 116, 105, 118, 101, 58, 50, 48, 49, 48, 45, 48, 51, 45, 48, 57, 59, 50, 48, 49, 48, 45, 49, 57, 45, 85, 69], "", false⟩,
  ⟨[117, 114, 110, 58, 108, 101, 120, 58, 117, 115, 58, 102, 101, 100, 101, 114, 97, 108, 46, 115, 117, 112, 114, 101, 109, 101, 46, 99, 111, 117, 114, 116, 58, 100, 101, 99, 105, 115, 105, 111, 110, 58, 49, 57, 54, 51, 45, 48, 51, 45, 49, 56, 59, 51, 55, 50, 46, 117, 115, 46, 51, 51, 53], true, [117, 114, 110], [108, 101, 120], [117, 115, 58, 102, 101, 100, 101, 114, 97, 108, 46, 115, 117, 112, 114, 101, 109, 101, 46, 99, 111, 117, 114, 116, 58, 100, 101, 99, 105, 115, 105, 111, 110, 58, 49, 57, 54, 51, 45, 48, 51, 45, 49, 56, 59, 51, 55, 50, 46, 117, 115, 46, 51, 51, 53], [], [117, 114, 110, 58, 108, 101, 120, 58, 117, 115, 58, 102, 101, 100, 101, 114, 97, 108, 46, 115, 117, 112, 114, 101, 109, 101, 46, 99, 111, 117, 114, 116, 58, 100, 101, 99, 105, 115, 105, 111, 110, 58, 49, 57, 54, 51, 45, 48, 51, 45, 49, 56, 59, 51, 55, 50, 46, 117, 115, 46, 51, 51, 53], [117, 114, 110, 58, 108, 101, 120, 58, 117, 115, 58, 102, 101, 100, 101, 114, 97, 108, 46, 115, 117, 112, 114, 101, 109, 101, 46, 99, 111, 117, 114, 116, 58, 100, 101, 99, 105, 115, 105, 111, 110, 58, 49, 57, 54, 51, 45, 48, 51, 45, 49, 56, 59, 51, 55, 50, 46, 117, 115, 46, 51, 51, 53], "", false⟩]

example : ((urnlexTestCases.drop 0).take 12).all (check RFC2141Only) = true := by decide +kernel
example : urnlexTestCases.length = 7 := by decide

/-- /repo/tables_test.go `scimOnlyTestCases` -/
def scimOnlyTestCases : List Row := [
  ⟨[117, 114, 110, 58, 105, 101, 116, 102, 58, 112, 97, 114, 97, 109, 115, 58, 115, 99, 105, 109, 58, 115, 99, 104, 101, 109, 97, 115, 58, 99, 111, 114, 101, 58, 50, 46, 48, 58, 85, 115, 101, 114], true, [117, 114, 110], [105, 101, 116, 102, 58, 112, 97, 114, 97, 109, 115, 58, 115, 99, 105, 109], [115, 99, 104, 101, 109, 97, 115, 58, 99, 111, 114, 101, 58, 50, 46, 48, 58, 85, 115, 101, 114], [], [117, 114, 110, 58, 105, 101, 116, 102, 58, 112, 97, 114, 97, 109, 115, 58, 115, 99, 105, 109, 58, 115, 99, 104, 101, 109, 97, 115, 58, 99, 111, 114, 101, 58, 50, 46, 48, 58, 85, 115, 101, 114], [117, 114, 110, 58, 105, 101, 116, 102, 58, 112, 97, 114, 97, 109, 115, 58, 115, 99, 105, 109, 58, 115, 99, 104, 101, 109, 97, 115, 58, 99, 111, 114, 101, 58, 50, 46, 48, 58, 85, 115, 101, 114], "", true⟩,
  ⟨[117, 114, 110, 58, 105, 101, 116, 102, 58, 112, 97, 114, 97, 109, 115, 58, 115, 99, 105, 109, 58, 115, 99, 104, 101, 109, 97, 115, 58, 101, 120, 116, 101, 110, 115, 105, 111, 110, 58, 101, 110, 116, 101, 114, 112, 114, 105, 115, 101, 58, 50, 46, 48, 58, 85, 115, 101, 114], true, [117, 114, 110], [105, 101, 116, 102, 58, 112, 97, 114, 97, 109, 115, 58, 115, 99, 105, 109], [115, 99, 104, 101, 109, 97, 115, 58, 101, 120, 116, 101, 110, 115, 105, 111, 110, 58, 101, 110, 116, 101, 114, 112, 114, 105, 115, 101, 58, 50, 46, 48, 58, 85, 115, 101, 114], [], [117, 114, 110, 58, 105, 101, 116, 102, 58, 112, 97, 114, 97, 109, 115, 58, 115, 99, 105, 109, 58, 115, 99, 104, 101, 109, 97, 115, 58, 101, 120, 116, 101, 110, 115, 105, 111, 110, 58, 101, 110, 116, 101, 114, 112, 114, 105, 115, 101, 58, 50, 46, 48, 58, 85, 115, 101, 114], [117, 114, 110, 58, 105, 101, 116, 102, 58, 112, 97, 114, 97, 109, 115, 58, 115, 99, 105, 109, 58, 115, 99, 104, 101, 109, 97, 115, 58, 101, 120, 116, 101, 110, 115, 105, 111, 110, 58, 101, 110, 116, 101, 114, 112, 114, 105, 115, 101, 58, 50, 46, 48, 58, 85, 115, 101, 114], "", true⟩,
  ⟨[117, 114, 110, 58, 105, 101, 116, 102, 58, 112, 97, 114, 97, 109, 115, 58, 115, 99, 105, 109, 58, 115, 99, 104, 101, 109, 97, 115, 58, 101, 120, 116, 101, 110, 115, 105, 111, 110, 58, 101, 110, 116, 101, 114, 112, 114, 105, 115, 101, 58, 50, 46, 48, 58, 85, 115, 101, 114, 58, 117, 115, 101, 114, 78, 97, 109, 101], true, [117, 114, 110], [105, 101, 116, 102, 58, 112, 97, 114, 97, 109, 115, 58, 115, 99, 105, 109], [115, 99, 104, 101, 109, 97, 115, 58, 101, 120, 116, 101, 110, 115, 105, 111, 110, 58, 101, 110, 116, 101, 114, 112, 114, 105, 115, 101, 58, 50, 46, 48, 58, 85, 115, 101, 114, 58, 117, 115, 101, 114, 78, 97, 109, 101], [], [117, 114, 110, 58, 105, 101, 116, 102, 58, 112, 97, 114, 97, 109, 115, 58, 115, 99, 105, 109, 58, 115, 99, 104, 101, 109, 97, 115, 58, 101, 120, 116, 101, 110, 115, 105, 111, 110, 58, 101, 110, 116, 101, 114, 112, 114, 105, 115, 101, 58, 50, 46, 48, 58, 85, 115, 101, 114, 58, 117, 115, 101, 114, 78, 97, 109, 101], [117, 114, 110, 58, 105, 101, 116, 102, 58, 112, 97, 114, 97, 109, 115, 58, 115, 99, 105, 109, 58, 115, 99, 104, 101, 109, 97, 115, 58, 101, 120, 116, 101, 110, 115, 105, 111, 110, 58, 101, 110, 116, 101, 114, 112, 114, 105, 115, 101, 58, 50, 46, 48, 58, 85, 115, 101, 114, 58, 117, 115, 101, 114, 78, 97, 109, 101], "", true⟩,
  ⟨[117, 114, 110, 58, 105, 101, 116, 102, 58, 112, 97, 114, 97, 109, 115, 58, 115, 99, 105, 109, 58, 97, 112, 105, 58, 109, 101, 115, 115, 97, 103, 101, 115, 58, 50, 46, 48, 58, 76, 105, 115, 116, 82, 101, 115, 112, 111, 110, 115, 101], true, [117, 114, 110], [105, 101, 116, 102, 58, 112, 97, 114, 97, 109, 115, 58, 115, 99, 105, 109], [97, 112, 105, 58, 109, 101, 115, 115, 97, 103, 101, 115, 58, 50, 46, 48, 58, 76, 105, 115, 116, 82, 101, 115, 112, 111, 110, 115, 101], [], [117, 114, 110, 58, 105, 101, 116, 102, 58, 112, 97, 114, 97, 109, 115, 58, 115, 99, 105, 109, 58, 97, 112, 105, 58, 109, 101, 115, 115, 97, 103, 101, 115, 58, 50, 46, 48, 58, 76, 105, 115, 116, 82, 101, 115, 112, 111, 110, 115, 101], [117, 114, 110, 58, 105, 101, 116, 102, 58, 112, 97, 114, 97, 109, 115, 58, 115, 99, 105, 109, 58, 97, 112, 105, 58, 109, 101, 115, 115, 97, 103, 101, 115, 58, 50, 46, 48, 58, 76, 105, 115, 116, 82, 101, 115, 112, 111, 110, 115, 101], "", true⟩,
  ⟨[117, 114, 110, 58, 105, 101, 116, 102, 58, 112, 97, 114, 97, 109, 115, 58, 115, 99, 105, 109, 58, 115, 99, 104, 101, 109, 97, 115, 58, 99, 111, 114, 101], true, [117, 114, 110], [105, 101, 116, 102, 58, 112, 97, 114, 97, 109, 115, 58, 115, 99, 105, 109], [115, 99, 104, 101, 109, 97, 115, 58, 99, 111, 114, 101], [], [117, 114, 110, 58, 105, 101, 116, 102, 58, 112, 97, 114, 97, 109, 115, 58, 115, 99, 105, 109, 58, 115, 99, 104, 101, 109, 97, 115, 58, 99, 111, 114, 101], [117, 114, 110, 58, 105, 101, 116, 102, 58, 112, 97, 114, 97, 109, 115, 58, 115, 99, 105, 109, 58, 115, 99, 104, 101, 109, 97, 115, 58, 99, 111, 114, 101], "", true⟩,
  ⟨[117, 114, 110, 58, 105, 101, 116, 102, 58, 112, 97, 114, 97, 109, 115, 58, 115, 99, 105, 109, 58, 112, 97, 114, 97, 109, 58, 99, 111, 114, 101], true, [117, 114, 110], [105, 101, 116, 102, 58, 112, 97, 114, 97, 109, 115, 58, 115, 99, 105, 109], [112, 97, 114, 97, 109, 58, 99, 111, 114, 101], [], [117, 114, 110, 58, 105, 101, 116, 102, 58, 112, 97, 114, 97, 109, 115, 58, 115, 99, 105, 109, 58, 112, 97, 114, 97, 109, 58, 99, 111, 114, 101], [117, 114, 110, 58, 105, 101, 116, 102, 58, 112, 97, 114, 97, 109, 115, 58, 115, 99, 105, 109, 58, 112, 97, 114, 97, 109, 58, 99, 111, 114, 101], "", true⟩,
  ⟨[117, 114, 110, 58, 105, 101, 116, 102, 58, 112, 97, 114, 97, 109, 115, 58, 115, 99, 105, 109, 58, 97, 112, 105, 58, 109, 101, 115, 115, 97, 103, 101, 115, 58, 37, 70, 70], true, [117, 114, 110], [105, 101, 116, 102, 58, 112, 97, 114, 97, 109, 115, 58, 115, 99, 105, 109], [97, 112, 105, 58, 109, 101, 115, 115, 97, 103, 101, 115, 58, 37, 70, 70], [], [117, 114, 110, 58, 105, 101, 116, 102, 58, 112, 97, 114, 97, 109, 115, 58, 115, 99, 105, 109, 58, 97, 112, 105, 58, 109, 101, 115, 115, 97, 103, 101, 115, 58, 37, 70, 70], [117, 114, 110, 58, 105, 101, 116, 102, 58, 112, 97, 114, 97, 109, 115, 58, 115, 99, 105, 109, 58, 97, 112, 105, 58, 109, 101, 115, 115, 97, 103, 101, 115, 58, 37, 102, 102], "", true⟩,
  ⟨[97, 114, 110, 58, 105, 101, 116, 102, 58, 112, 97, 114, 97, 109, 115, 58, 115, 99, 105, 109, 58, 115, 99, 104, 101, 109, 97, 115, 58, 99, 111, 114, 101], false, [], [], [], [], [], [], "expecting the prefix to be the \"urn\" string (whatever case) [col 0]", false⟩,
  ⟨[117, 115, 110, 58, 105, 101, 116, 102, 58, 112, 97, 114, 97, 109, 115, 58, 115, 99, 105, 109, 58, 115, 99, 104, 101, 109, 97, 115, 58, 99, 111, 114, 101], false, [], [], [], [], [], [], "expecting the prefix to be the \"urn\" string (whatever case) [col 1]", false⟩,
  ⟨[117, 114, 109, 58, 105, 101, 116, 102, 58, 112, 97, 114, 97, 109, 115, 58, 115, 99, 105, 109, 58, 115, 99, 104, 101, 109, 97, 115, 58, 99, 111, 114, 101], false, [], [], [], [], [], [], "expecting the prefix to be the \"urn\" string (whatever case) [col 2]", false⟩,
  ⟨[117, 114, 110, 111, 58, 105, 101, 116, 102, 58, 112, 97, 114, 97, 109, 115, 58, 115, 99, 105, 109, 58, 115, 99, 104, 101, 109, 97, 115, 58, 99, 111, 114, 101], false, [], [], [], [], [], [], "expecting the prefix to be the \"urn\" string (whatever case) [col 3]", false⟩,
  ⟨[117, 114, 110, 111], false, [], [], [], [], [], [], "expecting the prefix to be the \"urn\" string (whatever case) [col 3]", false⟩,
  ⟨[117, 114, 110, 58, 87, 82, 79, 78, 71, 58, 115, 99, 104, 101, 109, 97, 115, 58, 99, 111, 114, 101], false, [], [], [], [], [], [], "expecing the SCIM namespace identifier (ietf:params:scim) [col 4]", false⟩,
  ⟨[117, 114, 110, 58, 105, 101, 116, 102, 58, 112, 97, 114, 97, 109, 115, 58, 115, 99, 105, 109, 58, 87, 82, 79, 78, 71, 58, 99, 111, 114, 101], false, [], [], [], [], [], [], "expecting a correct SCIM type (schemas, api, param) [col 21]", false⟩,
  ⟨[117, 114, 110, 58, 105, 101, 116, 102, 58, 112, 97, 114, 97, 109, 115, 58, 115, 99, 105, 109, 58, 115, 99, 104, 101, 109, 97, 115, 58, 36], false, [], [], [], [], [], [], "expecting one or more alnum char in the SCIM name part [col 29]", false⟩,
  ⟨[117, 114, 110, 58, 105, 101, 116, 102, 58, 112, 97, 114, 97, 109, 115, 58, 115, 99, 105, 109, 58, 115, 99, 104, 101, 109, 97, 115, 58, 99, 111, 114, 101, 45], false, [], [], [], [], [], [], "expecting one or more alnum char in the SCIM name part [col 33]", false⟩,
  ⟨[117, 114, 110, 58, 105, 101, 116, 102, 58, 112, 97, 114, 97, 109, 115, 58, 115, 99, 105, 109, 58, 115, 99, 104, 101, 109, 97, 115, 58, 99, 111, 114, 101, 58], false, [], [], [], [], [], [], "expecting a not empty SCIM other part after colon [col 33]", false⟩,
  ⟨[117, 114, 110, 58, 105, 101, 116, 102, 58, 112, 97, 114, 97, 109, 115, 58, 115, 99, 105, 109, 58, 115, 99, 104, 101, 109, 97, 115, 58, 99, 111, 114, 101, 58, 50, 46, 38], false, [], [], [], [], [], [], "expecting a well-formed other SCIM part [col 36]", false⟩,
  ⟨[117, 114, 110, 58, 105, 101, 116, 102, 58, 112, 97, 114, 97, 109, 115, 58, 115, 99, 105, 109, 58, 97, 112, 105, 58, 109, 101, 115, 115, 97, 103, 101, 115, 58, 37], false, [], [], [], [], [], [], "expecting a not empty SCIM other part after colon [col 34]", false⟩,
  ⟨[117, 114, 110, 58, 105, 101, 116, 102, 58, 112, 97, 114, 97, 109, 115, 58, 115, 99, 105, 109, 58, 97, 112, 105, 58, 109, 101, 115, 115, 97, 103, 101, 115, 58, 37, 70], false, [], [], [], [], [], [], "expecting a not empty SCIM other part after colon [col 35]", false⟩,
  ⟨[117, 114, 110, 58], false, [], [], [], [], [], [], "expecing the SCIM namespace identifier (ietf:params:scim) [col 4]", false⟩,
  ⟨[117, 114, 110, 58, 58], false, [], [], [], [], [], [], "expecing the SCIM namespace identifier (ietf:params:scim) [col 4]", false⟩,
  ⟨[117, 114, 110, 58, 97, 58], false, [], [], [], [], [], [], "expecing the SCIM namespace identifier (ietf:params:scim) [col 4]", false⟩,
  ⟨[117, 114, 110, 58, 97], false, [], [], [], [], [], [], "expecing the SCIM namespace identifier (ietf:params:scim) [col 4]", false⟩,
  ⟨[117], false, [], [], [], [], [], [], "expecting the prefix to be the \"urn\" string (whatever case) [col 1]", false⟩,
  ⟨[117, 114], false, [], [], [], [], [], [], "expecting the prefix to be the \"urn\" string (whatever case) [col 2]", false⟩,
  ⟨[117, 114, 110], false, [], [], [], [], [], [], "expecting the prefix to be the \"urn\" string (whatever case) [col 3]", false⟩]

example : ((scimOnlyTestCases.drop 0).take 12).all (check RFC7643Only) = true := by decide +kernel
example : ((scimOnlyTestCases.drop 12).take 12).all (check RFC7643Only) = true := by decide +kernel
example : ((scimOnlyTestCases.drop 24).take 12).all (check RFC7643Only) = true := by decide +kernel
example : scimOnlyTestCases.length = 27 := by decide

/-- /repo/tables_test.go `urn2141OnlyTestCases` -/
def urn2141OnlyTestCases : List Row := [
  ⟨[117, 114, 110, 58, 115, 105, 109, 112, 108, 101, 58, 115, 105, 109, 112, 108, 101], true, [117, 114, 110], [115, 105, 109, 112, 108, 101], [115, 105, 109, 112, 108, 101], [], [117, 114, 110, 58, 115, 105, 109, 112, 108, 101, 58, 115, 105, 109, 112, 108, 101], [117, 114, 110, 58, 115, 105, 109, 112, 108, 101, 58, 115, 105, 109, 112, 108, 101], "", false⟩,
  ⟨[117, 114, 110, 58, 99, 105, 97, 111, 58, 37, 53, 68], true, [117, 114, 110], [99, 105, 97, 111], [37, 53, 68], [], [117, 114, 110, 58, 99, 105, 97, 111, 58, 37, 53, 68], [117, 114, 110, 58, 99, 105, 97, 111, 58, 37, 53, 100], "", false⟩,
  ⟨[85, 82, 78, 58, 102, 111, 111, 58, 97, 49, 50, 51, 44, 52, 53, 54], true, [85, 82, 78], [102, 111, 111], [97, 49, 50, 51, 44, 52, 53, 54], [], [85, 82, 78, 58, 102, 111, 111, 58, 97, 49, 50, 51, 44, 52, 53, 54], [117, 114, 110, 58, 102, 111, 111, 58, 97, 49, 50, 51, 44, 52, 53, 54], "", false⟩,
  ⟨[117, 114, 110, 58, 102, 111, 111, 58, 97, 49, 50, 51, 44, 52, 53, 54], true, [117, 114, 110], [102, 111, 111], [97, 49, 50, 51, 44, 52, 53, 54], [], [117, 114, 110, 58, 102, 111, 111, 58, 97, 49, 50, 51, 44, 52, 53, 54], [117, 114, 110, 58, 102, 111, 111, 58, 97, 49, 50, 51, 44, 52, 53, 54], "", false⟩,
  ⟨[117, 114, 110, 58, 70, 79, 79, 58, 97, 49, 50, 51, 44, 52, 53, 54], true, [117, 114, 110], [70, 79, 79], [97, 49, 50, 51, 44, 52, 53, 54], [], [117, 114, 110, 58, 70, 79, 79, 58, 97, 49, 50, 51, 44, 52, 53, 54], [117, 114, 110, 58, 102, 111, 111, 58, 97, 49, 50, 51, 44, 52, 53, 54], "", false⟩,
  ⟨[117, 114, 110, 58, 102, 111, 111, 58, 65, 49, 50, 51, 44, 52, 53, 54], true, [117, 114, 110], [102, 111, 111], [65, 49, 50, 51, 44, 52, 53, 54], [], [117, 114, 110, 58, 102, 111, 111, 58, 65, 49, 50, 51, 44, 52, 53, 54], [117, 114, 110, 58, 102, 111, 111, 58, 65, 49, 50, 51, 44, 52, 53, 54], "", false⟩,
  ⟨[117, 114, 110, 58, 102, 111, 111, 58, 97, 49, 50, 51, 37, 50, 67, 52, 53, 54], true, [117, 114, 110], [102, 111, 111], [97, 49, 50, 51, 37, 50, 67, 52, 53, 54], [], [117, 114, 110, 58, 102, 111, 111, 58, 97, 49, 50, 51, 37, 50, 67, 52, 53, 54], [117, 114, 110, 58, 102, 111, 111, 58, 97, 49, 50, 51, 37, 50, 99, 52, 53, 54], "", false⟩,
  ⟨[85, 82, 78, 58, 70, 79, 79, 58, 97, 49, 50, 51, 37, 50, 99, 52, 53, 54], true, [85, 82, 78], [70, 79, 79], [97, 49, 50, 51, 37, 50, 99, 52, 53, 54], [], [85, 82, 78, 58, 70, 79, 79, 58, 97, 49, 50, 51, 37, 50, 99, 52, 53, 54], [117, 114, 110, 58, 102, 111, 111, 58, 97, 49, 50, 51, 37, 50, 99, 52, 53, 54], "", false⟩,
  ⟨[85, 82, 78, 58, 70, 79, 79, 58, 65, 66, 67, 37, 70, 70, 97, 98, 99, 49, 50, 51, 37, 50, 99, 52, 53, 54], true, [85, 82, 78], [70, 79, 79], [65, 66, 67, 37, 70, 70, 97, 98, 99, 49, 50, 51, 37, 50, 99, 52, 53, 54], [], [85, 82, 78, 58, 70, 79, 79, 58, 65, 66, 67, 37, 70, 70, 97, 98, 99, 49, 50, 51, 37, 50, 99, 52, 53, 54], [117, 114, 110, 58, 102, 111, 111, 58, 65, 66, 67, 37, 102, 102, 97, 98, 99, 49, 50, 51, 37, 50, 99, 52, 53, 54], "", false⟩,
  ⟨[85, 82, 78, 58, 70, 79, 79, 58, 65, 66, 67, 37, 70, 70, 97, 98, 99, 49, 50, 51, 37, 50, 67, 52, 53, 54, 37, 57, 65], true, [85, 82, 78], [70, 79, 79], [65, 66, 67, 37, 70, 70, 97, 98, 99, 49, 50, 51, 37, 50, 67, 52, 53, 54, 37, 57, 65], [], [85, 82, 78, 58, 70, 79, 79, 58, 65, 66, 67, 37, 70, 70, 97, 98, 99, 49, 50, 51, 37, 50, 67, 52, 53, 54, 37, 57, 65], [117, 114, 110, 58, 102, 111, 111, 58, 65, 66, 67, 37, 102, 102, 97, 98, 99, 49, 50, 51, 37, 50, 99, 52, 53, 54, 37, 57, 97], "", false⟩,
  ⟨[117, 114, 110, 58, 105, 101, 116, 102, 58, 112, 97, 114, 97, 109, 115, 58, 115, 99, 105, 109, 58, 115, 99, 104, 101, 109, 97, 115, 58, 99, 111, 114, 101, 58, 50, 46, 48, 58, 85, 115, 101, 114], true, [117, 114, 110], [105, 101, 116, 102], [112, 97, 114, 97, 109, 115, 58, 115, 99, 105, 109, 58, 115, 99, 104, 101, 109, 97, 115, 58, 99, 111, 114, 101, 58, 50, 46, 48, 58, 85, 115, 101, 114], [], [117, 114, 110, 58, 105, 101, 116, 102, 58, 112, 97, 114, 97, 109, 115, 58, 115, 99, 105, 109, 58, 115, 99, 104, 101, 109, 97, 115, 58, 99, 111, 114, 101, 58, 50, 46, 48, 58, 85, 115, 101, 114], [117, 114, 110, 58, 105, 101, 116, 102, 58, 112, 97, 114, 97, 109, 115, 58, 115, 99, 105, 109, 58, 115, 99, 104, 101, 109, 97, 115, 58, 99, 111, 114, 101, 58, 50, 46, 48, 58, 85, 115, 101, 114], "", true⟩,
  ⟨[117, 114, 110, 58, 105, 101, 116, 102, 58, 112, 97, 114, 97, 109, 115, 58, 115, 99, 105, 109, 58, 115, 99, 104, 101, 109, 97, 115, 58, 101, 120, 116, 101, 110, 115, 105, 111, 110, 58, 101, 110, 116, 101, 114, 112, 114, 105, 115, 101, 58, 50, 46, 48, 58, 85, 115, 101, 114], true, [117, 114, 110], [105, 101, 116, 102], [112, 97, 114, 97, 109, 115, 58, 115, 99, 105, 109, 58, 115, 99, 104, 101, 109, 97, 115, 58, 101, 120, 116, 101, 110, 115, 105, 111, 110, 58, 101, 110, 116, 101, 114, 112, 114, 105, 115, 101, 58, 50, 46, 48, 58, 85, 115, 101, 114], [], [117, 114, 110, 58, 105, 101, 116, 102, 58, 112, 97, 114, 97, 109, 115, 58, 115, 99, 105, 109, 58, 115, 99, 104, 101, 109, 97, 115, 58, 101, 120, 116, 101, 110, 115, 105, 111, 110, 58, 101, 110, 116, 101, 114, 112, 114, 105, 115, 101, 58, 50, 46, 48, 58, 85, 115, 101, 114], [117, 114, 110, 58, 105, 101, 116, 102, 58, 112, 97, 114, 97, 109, 115, 58, 115, 99, 105, 109, 58, 115, 99, 104, 101, 109, 97, 115, 58, 101, 120, 116, 101, 110, 115, 105, 111, 110, 58, 101, 110, 116, 101, 114, 112, 114, 105, 115, 101, 58, 50, 46, 48, 58, 85, 115, 101, 114], "", true⟩,
  ⟨[117, 114, 110, 58, 105, 101, 116, 102, 58, 112, 97, 114, 97, 109, 115, 58, 115, 99, 105, 109, 58, 115, 99, 104, 101, 109, 97, 115, 58, 101, 120, 116, 101, 110, 115, 105, 111, 110, 58, 101, 110, 116, 101, 114, 112, 114, 105, 115, 101, 58, 50, 46, 48, 58, 85, 115, 101, 114, 58, 117, 115, 101, 114, 78, 97, 109, 101], true, [117, 114, 110], [105, 101, 116, 102], [112, 97, 114, 97, 109, 115, 58, 115, 99, 105, 109, 58, 115, 99, 104, 101, 109, 97, 115, 58, 101, 120, 116, 101, 110, 115, 105, 111, 110, 58, 101, 110, 116, 101, 114, 112, 114, 105, 115, 101, 58, 50, 46, 48, 58, 85, 115, 101, 114, 58, 117, 115, 101, 114, 78, 97, 109, 101], [], [117, 114, 110, 58, 105, 101, 116, 102, 58, 112, 97, 114, 97, 109, 115, 58, 115, 99, 105, 109, 58, 115, 99, 104, 101, 109, 97, 115, 58, 101, 120, 116, 101, 110, 115, 105, 111, 110, 58, 101, 110, 116, 101, 114, 112, 114, 105, 115, 101, 58, 50, 46, 48, 58, 85, 115, 101, 114, 58, 117, 115, 101, 114, 78, 97, 109, 101], [117, 114, 110, 58, 105, 101, 116, 102, 58, 112, 97, 114, 97, 109, 115, 58, 115, 99, 105, 109, 58, 115, 99, 104, 101, 109, 97, 115, 58, 101, 120, 116, 101, 110, 115, 105, 111, 110, 58, 101, 110, 116, 101, 114, 112, 114, 105, 115, 101, 58, 50, 46, 48, 58, 85, 115, 101, 114, 58, 117, 115, 101, 114, 78, 97, 109, 101], "", true⟩,
  ⟨[117, 114, 110, 58, 105, 101, 116, 102, 58, 112, 97, 114, 97, 109, 115, 58, 115, 99, 105, 109, 58, 115, 99, 104, 101, 109, 97, 115, 58, 101, 120, 116, 101, 110, 115, 105, 111, 110, 58, 101, 110, 116, 101, 114, 112, 114, 105, 115, 101, 58, 50, 46, 48, 58, 85, 115, 101, 114, 58, 109, 101, 116, 97, 46, 108, 97, 115, 116, 77, 111, 100, 105, 102, 105, 101, 100], true, [117, 114, 110], [105, 101, 116, 102], [112, 97, 114, 97, 109, 115, 58, 115, 99, 105, 109, 58, 115, 99, 104, 101, 109, 97, 115, 58, 101, 120, 116, 101, 110, 115, 105, 111, 110, 58, 101, 110, 116, 101, 114, 112, 114, 105, 115, 101, 58, 50, 46, 48, 58, 85, 115, 101, 114, 58, 109, 101, 116, 97, 46, 108, 97, 115, 116, 77, 111, 100, 105, 102, 105, 101, 100], [], [117, 114, 110, 58, 105, 101, 116, 102, 58, 112, 97, 114, 97, 109, 115, 58, 115, 99, 105, 109, 58, 115, 99, 104, 101, 109, 97, 115, 58, 101, 120, 116, 101, 110, 115, 105, 111, 110, 58, 101, 110, 116, 101, 114, 112, 114, 105, 115, 101, 58, 50, 46, 48, 58, 85, 115, 101, 114, 58, 109, 101, 116, 97, 46, 108, 97, 115, 116, 77, 111, 100, 105, 102, 105, 101, 100], [117, 114, 110, 58, 105, 101, 116, 102, 58, 112, 97, 114, 97, 109, 115, 58, 115, 99, 105, 109, 58, 115, 99, 104, 101, 109, 97, 115, 58, 101, 120, 116, 101, 110, 115, 105, 111, 110, 58, 101, 110, 116, 101, 114, 112, 114, 105, 115, 101, 58, 50, 46, 48, 58, 85, 115, 101, 114, 58, 109, 101, 116, 97, 46, 108, 97, 115, 116, 77, 111, 100, 105, 102, 105, 101, 100], "", true⟩,
  ⟨[117, 114, 110, 58, 97, 58, 98], true, [117, 114, 110], [97], [98], [], [117, 114, 110, 58, 97, 58, 98], [117, 114, 110, 58, 97, 58, 98], "", false⟩,
  ⟨[117, 114, 110, 58, 97, 58, 58], true, [117, 114, 110], [97], [58], [], [117, 114, 110, 58, 97, 58, 58], [117, 114, 110, 58, 97, 58, 58], "", false⟩,
  ⟨[117, 114, 110, 58, 97, 58, 45], true, [117, 114, 110], [97], [45], [], [117, 114, 110, 58, 97, 58, 45], [117, 114, 110, 58, 97, 58, 45], "", false⟩,
  ⟨[85, 82, 78, 58, 115, 105, 109, 112, 108, 101, 58, 115, 105, 109, 112, 108, 101], true, [85, 82, 78], [115, 105, 109, 112, 108, 101], [115, 105, 109, 112, 108, 101], [], [85, 82, 78, 58, 115, 105, 109, 112, 108, 101, 58, 115, 105, 109, 112, 108, 101], [117, 114, 110, 58, 115, 105, 109, 112, 108, 101, 58, 115, 105, 109, 112, 108, 101], "", false⟩,
  ⟨[85, 114, 110, 58, 115, 105, 109, 112, 108, 101, 58, 115, 105, 109, 112, 108, 101], true, [85, 114, 110], [115, 105, 109, 112, 108, 101], [115, 105, 109, 112, 108, 101], [], [85, 114, 110, 58, 115, 105, 109, 112, 108, 101, 58, 115, 105, 109, 112, 108, 101], [117, 114, 110, 58, 115, 105, 109, 112, 108, 101, 58, 115, 105, 109, 112, 108, 101], "", false⟩,
  ⟨[117, 114, 110, 58, 117, 114, 110, 97, 58, 115, 105, 109, 112, 108, 101], true, [117, 114, 110], [117, 114, 110, 97], [115, 105, 109, 112, 108, 101], [], [117, 114, 110, 58, 117, 114, 110, 97, 58, 115, 105, 109, 112, 108, 101], [117, 114, 110, 58, 117, 114, 110, 97, 58, 115, 105, 109, 112, 108, 101], "", false⟩,
  ⟨[117, 114, 110, 58, 98, 117, 114, 110, 111, 117, 116, 58, 110, 115, 115], true, [117, 114, 110], [98, 117, 114, 110, 111, 117, 116], [110, 115, 115], [], [117, 114, 110, 58, 98, 117, 114, 110, 111, 117, 116, 58, 110, 115, 115], [117, 114, 110, 58, 98, 117, 114, 110, 111, 117, 116, 58, 110, 115, 115], "", false⟩,
  ⟨[117, 114, 110, 58, 98, 117, 114, 110, 58, 110, 115, 115], true, [117, 114, 110], [98, 117, 114, 110], [110, 115, 115], [], [117, 114, 110, 58, 98, 117, 114, 110, 58, 110, 115, 115], [117, 114, 110, 58, 98, 117, 114, 110, 58, 110, 115, 115], "", false⟩,
  ⟨[117, 114, 110, 58, 117, 114, 110, 117, 114, 110, 117, 114, 110, 58, 120], true, [117, 114, 110], [117, 114, 110, 117, 114, 110, 117, 114, 110], [120], [], [117, 114, 110, 58, 117, 114, 110, 117, 114, 110, 117, 114, 110, 58, 120], [117, 114, 110, 58, 117, 114, 110, 117, 114, 110, 117, 114, 110, 58, 120], "", false⟩,
  ⟨[117, 114, 110, 58, 97, 98, 99, 100, 101, 102, 103, 104, 105, 108, 109, 110, 111, 112, 113, 114, 115, 116, 117, 118, 122, 97, 98, 99, 100, 101, 102, 103, 104, 105, 108, 109, 58, 120], true, [117, 114, 110], [97, 98, 99, 100, 101, 102, 103, 104, 105, 108, 109, 110, 111, 112, 113, 114, 115, 116, 117, 118, 122, 97, 98, 99, 100, 101, 102, 103, 104, 105, 108, 109], [120], [], [117, 114, 110, 58, 97, 98, 99, 100, 101, 102, 103, 104, 105, 108, 109, 110, 111, 112, 113, 114, 115, 116, 117, 118, 122, 97, 98, 99, 100, 101, 102, 103, 104, 105, 108, 109, 58, 120], [117, 114, 110, 58, 97, 98, 99, 100, 101, 102, 103, 104, 105, 108, 109, 110, 111, 112, 113, 114, 115, 116, 117, 118, 122, 97, 98, 99, 100, 101, 102, 103, 104, 105, 108, 109, 58, 120], "", false⟩,
  ⟨[85, 82, 78, 58, 49, 50, 51, 58, 120], true, [85, 82, 78], [49, 50, 51], [120], [], [85, 82, 78, 58, 49, 50, 51, 58, 120], [117, 114, 110, 58, 49, 50, 51, 58, 120], "", false⟩,
  ⟨[85, 82, 78, 58, 49, 97, 98, 58, 120], true, [85, 82, 78], [49, 97, 98], [120], [], [85, 82, 78, 58, 49, 97, 98, 58, 120], [117, 114, 110, 58, 49, 97, 98, 58, 120], "", false⟩,
  ⟨[85, 82, 78, 58, 97, 49, 98, 58, 120], true, [85, 82, 78], [97, 49, 98], [120], [], [85, 82, 78, 58, 97, 49, 98, 58, 120], [117, 114, 110, 58, 97, 49, 98, 58, 120], "", false⟩,
  ⟨[85, 82, 78, 58, 97, 49, 50, 58, 120], true, [85, 82, 78], [97, 49, 50], [120], [], [85, 82, 78, 58, 97, 49, 50, 58, 120], [117, 114, 110, 58, 97, 49, 50, 58, 120], "", false⟩,
  ⟨[85, 82, 78, 58, 99, 100, 50, 58, 120], true, [85, 82, 78], [99, 100, 50], [120], [], [85, 82, 78, 58, 99, 100, 50, 58, 120], [117, 114, 110, 58, 99, 100, 50, 58, 120], "", false⟩,
  ⟨[85, 82, 78, 58, 97, 98, 99, 100, 45, 58, 120], true, [85, 82, 78], [97, 98, 99, 100, 45], [120], [], [85, 82, 78, 58, 97, 98, 99, 100, 45, 58, 120], [117, 114, 110, 58, 97, 98, 99, 100, 45, 58, 120], "", false⟩,
  ⟨[85, 82, 78, 58, 97, 98, 99, 100, 45, 97, 98, 99, 100, 58, 120], true, [85, 82, 78], [97, 98, 99, 100, 45, 97, 98, 99, 100], [120], [], [85, 82, 78, 58, 97, 98, 99, 100, 45, 97, 98, 99, 100, 58, 120], [117, 114, 110, 58, 97, 98, 99, 100, 45, 97, 98, 99, 100, 58, 120], "", false⟩,
  ⟨[85, 82, 78, 58, 97, 49, 50, 51, 45, 52, 53, 54, 122, 58, 120], true, [85, 82, 78], [97, 49, 50, 51, 45, 52, 53, 54, 122], [120], [], [85, 82, 78, 58, 97, 49, 50, 51, 45, 52, 53, 54, 122, 58, 120], [117, 114, 110, 58, 97, 49, 50, 51, 45, 52, 53, 54, 122, 58, 120], "", false⟩,
  ⟨[117, 114, 110, 58, 117, 114, 110, 120, 58, 117, 114, 110], true, [117, 114, 110], [117, 114, 110, 120], [117, 114, 110], [], [117, 114, 110, 58, 117, 114, 110, 120, 58, 117, 114, 110], [117, 114, 110, 58, 117, 114, 110, 120, 58, 117, 114, 110], "", false⟩,
  ⟨[117, 114, 110, 58, 117, 114, 110, 117, 114, 110, 117, 114, 110, 58, 117, 114, 110], true, [117, 114, 110], [117, 114, 110, 117, 114, 110, 117, 114, 110], [117, 114, 110], [], [117, 114, 110, 58, 117, 114, 110, 117, 114, 110, 117, 114, 110, 58, 117, 114, 110], [117, 114, 110, 58, 117, 114, 110, 117, 114, 110, 117, 114, 110, 58, 117, 114, 110], "", false⟩,
  ⟨[117, 114, 110, 58, 104, 101, 121, 58, 117, 114, 110, 117, 114, 110, 117, 114, 110], true, [117, 114, 110], [104, 101, 121], [117, 114, 110, 117, 114, 110, 117, 114, 110], [], [117, 114, 110, 58, 104, 101, 121, 58, 117, 114, 110, 117, 114, 110, 117, 114, 110], [117, 114, 110, 58, 104, 101, 121, 58, 117, 114, 110, 117, 114, 110, 117, 114, 110], "", false⟩,
  ⟨[117, 114, 110, 58, 99, 105, 97, 111, 58, 97, 58, 98, 58, 99], true, [117, 114, 110], [99, 105, 97, 111], [97, 58, 98, 58, 99], [], [117, 114, 110, 58, 99, 105, 97, 111, 58, 97, 58, 98, 58, 99], [117, 114, 110, 58, 99, 105, 97, 111, 58, 97, 58, 98, 58, 99], "", false⟩,
  ⟨[117, 114, 110, 58, 97, 97, 97, 58, 120, 58, 121, 58], true, [117, 114, 110], [97, 97, 97], [120, 58, 121, 58], [], [117, 114, 110, 58, 97, 97, 97, 58, 120, 58, 121, 58], [117, 114, 110, 58, 97, 97, 97, 58, 120, 58, 121, 58], "", false⟩,
  ⟨[117, 114, 110, 58, 97, 97, 97, 58, 120, 58, 121, 58], true, [117, 114, 110], [97, 97, 97], [120, 58, 121, 58], [], [117, 114, 110, 58, 97, 97, 97, 58, 120, 58, 121, 58], [117, 114, 110, 58, 97, 97, 97, 58, 120, 58, 121, 58], "", false⟩,
  ⟨[117, 114, 110, 58, 99, 105, 97, 111, 58, 45], true, [117, 114, 110], [99, 105, 97, 111], [45], [], [117, 114, 110, 58, 99, 105, 97, 111, 58, 45], [117, 114, 110, 58, 99, 105, 97, 111, 58, 45], "", false⟩,
  ⟨[117, 114, 110, 58, 99, 105, 97, 111, 58, 40], true, [117, 114, 110], [99, 105, 97, 111], [40], [], [117, 114, 110, 58, 99, 105, 97, 111, 58, 40], [117, 114, 110, 58, 99, 105, 97, 111, 58, 40], "", false⟩,
  ⟨[117, 114, 110, 58, 99, 105, 97, 111, 58, 41], true, [117, 114, 110], [99, 105, 97, 111], [41], [], [117, 114, 110, 58, 99, 105, 97, 111, 58, 41], [117, 114, 110, 58, 99, 105, 97, 111, 58, 41], "", false⟩,
  ⟨[117, 114, 110, 58, 99, 105, 97, 111, 58, 43], true, [117, 114, 110], [99, 105, 97, 111], [43], [], [117, 114, 110, 58, 99, 105, 97, 111, 58, 43], [117, 114, 110, 58, 99, 105, 97, 111, 58, 43], "", false⟩,
  ⟨[117, 114, 110, 58, 99, 105, 97, 111, 58, 58], true, [117, 114, 110], [99, 105, 97, 111], [58], [], [117, 114, 110, 58, 99, 105, 97, 111, 58, 58], [117, 114, 110, 58, 99, 105, 97, 111, 58, 58], "", false⟩,
  ⟨[117, 114, 110, 58, 99, 111, 108, 111, 110, 58, 58, 58, 58, 58, 110, 115, 115], true, [117, 114, 110], [99, 111, 108, 111, 110], [58, 58, 58, 58, 110, 115, 115], [], [117, 114, 110, 58, 99, 111, 108, 111, 110, 58, 58, 58, 58, 58, 110, 115, 115], [117, 114, 110, 58, 99, 111, 108, 111, 110, 58, 58, 58, 58, 58, 110, 115, 115], "", false⟩,
  ⟨[117, 114, 110, 58, 99, 105, 97, 111, 58, 33], true, [117, 114, 110], [99, 105, 97, 111], [33], [], [117, 114, 110, 58, 99, 105, 97, 111, 58, 33], [117, 114, 110, 58, 99, 105, 97, 111, 58, 33], "", false⟩,
  ⟨[117, 114, 110, 58, 99, 105, 97, 111, 58, 33, 33, 42], true, [117, 114, 110], [99, 105, 97, 111], [33, 33, 42], [], [117, 114, 110, 58, 99, 105, 97, 111, 58, 33, 33, 42], [117, 114, 110, 58, 99, 105, 97, 111, 58, 33, 33, 42], "", false⟩,
  ⟨[117, 114, 110, 58, 99, 105, 97, 111, 58, 45, 33, 58, 45, 44, 58, 120], true, [117, 114, 110], [99, 105, 97, 111], [45, 33, 58, 45, 44, 58, 120], [], [117, 114, 110, 58, 99, 105, 97, 111, 58, 45, 33, 58, 45, 44, 58, 120], [117, 114, 110, 58, 99, 105, 97, 111, 58, 45, 33, 58, 45, 44, 58, 120], "", false⟩,
  ⟨[117, 114, 110, 58, 99, 105, 97, 111, 58, 61, 64], true, [117, 114, 110], [99, 105, 97, 111], [61, 64], [], [117, 114, 110, 58, 99, 105, 97, 111, 58, 61, 64], [117, 114, 110, 58, 99, 105, 97, 111, 58, 61, 64], "", false⟩,
  ⟨[117, 114, 110, 58, 99, 105, 97, 111, 58, 64, 33, 61, 37, 50, 67, 40, 120, 121, 122, 41, 43, 97, 44, 98, 46, 42, 64, 103, 61, 36, 95, 39], true, [117, 114, 110], [99, 105, 97, 111], [64, 33, 61, 37, 50, 67, 40, 120, 121, 122, 41, 43, 97, 44, 98, 46, 42, 64, 103, 61, 36, 95, 39], [], [117, 114, 110, 58, 99, 105, 97, 111, 58, 64, 33, 61, 37, 50, 67, 40, 120, 121, 122, 41, 43, 97, 44, 98, 46, 42, 64, 103, 61, 36, 95, 39], [117, 114, 110, 58, 99, 105, 97, 111, 58, 64, 33, 61, 37, 50, 99, 40, 120, 121, 122, 41, 43, 97, 44, 98, 46, 42, 64, 103, 61, 36, 95, 39], "", false⟩,
  ⟨[85, 82, 78, 58, 104, 101, 120, 101, 115, 58, 37, 50, 53], true, [85, 82, 78], [104, 101, 120, 101, 115], [37, 50, 53], [], [85, 82, 78, 58, 104, 101, 120, 101, 115, 58, 37, 50, 53], [117, 114, 110, 58, 104, 101, 120, 101, 115, 58, 37, 50, 53], "", false⟩,
  ⟨[85, 82, 78, 58, 120, 58, 97, 98, 99, 37, 49, 68, 122, 37, 50, 70, 37, 51, 97, 122], true, [85, 82, 78], [120], [97, 98, 99, 37, 49, 68, 122, 37, 50, 70, 37, 51, 97, 122], [], [85, 82, 78, 58, 120, 58, 97, 98, 99, 37, 49, 68, 122, 37, 50, 70, 37, 51, 97, 122], [117, 114, 110, 58, 120, 58, 97, 98, 99, 37, 49, 100, 122, 37, 50, 102, 37, 51, 97, 122], "", false⟩,
  ⟨[85, 82, 78, 58, 45, 120, 120, 120, 58, 120], false, [], [], [], [], [], [], "expecting the identifier to be string (1..31 alnum chars, also containing dashes but not at its beginning) [col 4]", false⟩,
  ⟨[85, 82, 78, 58, 45, 45, 45, 120, 120, 120, 58, 120], false, [], [], [], [], [], [], "expecting the identifier to be string (1..31 alnum chars, also containing dashes but not at its beginning) [col 4]", false⟩,
  ⟨[117, 114, 110, 58, 58, 99, 111, 108, 111, 110, 58, 110, 115, 115], false, [], [], [], [], [], [], "expecting the identifier to be string (1..31 alnum chars, also containing dashes but not at its beginning) [col 4]", false⟩,
  ⟨[117, 114, 110, 58, 58, 58, 58, 110, 115, 115], false, [], [], [], [], [], [], "expecting the identifier to be string (1..31 alnum chars, also containing dashes but not at its beginning) [col 4]", false⟩,
  ⟨[117, 114, 110, 58, 97, 98, 99, 100, 101, 102, 103, 104, 105, 108, 109, 110, 111, 112, 113, 114, 115, 116, 117, 118, 122, 97, 98, 99, 100, 101, 102, 103, 104, 105, 108, 109, 110, 58, 115, 112, 101, 99, 105, 102, 105, 99, 115, 116, 114, 105, 110, 103], false, [], [], [], [], [], [], "expecting the identifier to be string (1..31 alnum chars, also containing dashes but not at its beginning) [col 36]", false⟩,
  ⟨[85, 82, 78, 58, 97, 33, 63, 58, 120], false, [], [], [], [], [], [], "expecting the identifier to be string (1..31 alnum chars, also containing dashes but not at its beginning) [col 5]", false⟩,
  ⟨[85, 82, 78, 58, 64, 44, 58, 120], false, [], [], [], [], [], [], "expecting the identifier to be string (1..31 alnum chars, also containing dashes but not at its beginning) [col 4]", false⟩,
  ⟨[85, 82, 78, 58, 35, 44, 58, 120], false, [], [], [], [], [], [], "expecting the identifier to be string (1..31 alnum chars, also containing dashes but not at its beginning) [col 4]", false⟩,
  ⟨[85, 82, 78, 58, 98, 99, 39, 46, 64, 58, 120], false, [], [], [], [], [], [], "expecting the identifier to be string (1..31 alnum chars, also containing dashes but not at its beginning) [col 6]", false⟩,
  ⟨[117, 114, 110, 58, 117, 114, 110, 58, 78, 83, 83], false, [], [], [], [], [], [], "expecting the identifier to not contain the \"urn\" reserved string [col 7]", false⟩,
  ⟨[117, 114, 110, 58, 85, 82, 78, 58, 78, 83, 83], false, [], [], [], [], [], [], "expecting the identifier to not contain the \"urn\" reserved string [col 7]", false⟩,
  ⟨[85, 82, 78, 58, 85, 82, 78, 58, 78, 83, 83], false, [], [], [], [], [], [], "expecting the identifier to not contain the \"urn\" reserved string [col 7]", false⟩,
  ⟨[117, 114, 110, 58, 85, 114, 78, 58, 78, 83, 83], false, [], [], [], [], [], [], "expecting the identifier to not contain the \"urn\" reserved string [col 7]", false⟩,
  ⟨[117, 114, 110, 58, 85, 114, 110, 58, 78, 83, 83], false, [], [], [], [], [], [], "expecting the identifier to not contain the \"urn\" reserved string [col 7]", false⟩,
  ⟨[117, 114, 110, 58, 119, 104, 105, 116, 101, 32, 115, 112, 97, 99, 101, 58, 78, 83, 83], false, [], [], [], [], [], [], "expecting the identifier to be string (1..31 alnum chars, also containing dashes but not at its beginning) [col 9]", false⟩,
  ⟨[117, 114, 110, 58, 99, 111, 110, 99, 97, 116, 58, 110, 111, 32, 115, 112, 97, 99, 101, 115], false, [], [], [], [], [], [], "expecting the specific string to be a string containing alnum, hex, or others ([()+,-.:=@;$_!*']) chars [col 13]", false⟩,
  ⟨[117, 114, 110, 58, 97, 58, 37], false, [], [], [], [], [], [], "expecting the percent encoded chars to be well-formed (%alnum{2}) [col 7]", false⟩,
  ⟨[117, 114, 110, 58, 97, 58, 37, 65], false, [], [], [], [], [], [], "expecting the percent encoded chars to be well-formed (%alnum{2}) [col 8]", false⟩,
  ⟨[117, 114, 110, 58, 97, 58, 63], false, [], [], [], [], [], [], "expecting the specific string to be a string containing alnum, hex, or others ([()+,-.:=@;$_!*']) chars [col 6]", false⟩,
  ⟨[117, 114, 110, 58, 97, 58, 35], false, [], [], [], [], [], [], "expecting the specific string to be a string containing alnum, hex, or others ([()+,-.:=@;$_!*']) chars [col 6]", false⟩,
  ⟨[117, 114, 110, 58, 97, 58, 47], false, [], [], [], [], [], [], "expecting the specific string to be a string containing alnum, hex, or others ([()+,-.:=@;$_!*']) chars [col 6]", false⟩,
  ⟨[117, 114, 110, 58, 105, 101, 116, 102, 58, 112, 97, 114, 97, 109, 115, 58, 115, 99, 105, 109, 58, 97, 112, 105, 58, 109, 101, 115, 115, 97, 103, 101, 115, 58, 37], false, [], [], [], [], [], [], "expecting the percent encoded chars to be well-formed (%alnum{2}) [col 35]", false⟩,
  ⟨[117, 114, 110, 58, 105, 101, 116, 102, 58, 112, 97, 114, 97, 109, 115, 58, 115, 99, 105, 109, 58, 97, 112, 105, 58, 109, 101, 115, 115, 97, 103, 101, 115, 58, 37, 70], false, [], [], [], [], [], [], "expecting the percent encoded chars to be well-formed (%alnum{2}) [col 36]", false⟩,
  ⟨[97, 114, 110, 58, 105, 101, 116, 102, 58, 112, 97, 114, 97, 109, 115, 58, 115, 99, 105, 109, 58, 115, 99, 104, 101, 109, 97, 115, 58, 99, 111, 114, 101], false, [], [], [], [], [], [], "expecting the prefix to be the \"urn\" string (whatever case) [col 0]", false⟩,
  ⟨[117, 115, 110, 58, 105, 101, 116, 102, 58, 112, 97, 114, 97, 109, 115, 58, 115, 99, 105, 109, 58, 115, 99, 104, 101, 109, 97, 115, 58, 99, 111, 114, 101], false, [], [], [], [], [], [], "expecting the prefix to be the \"urn\" string (whatever case) [col 1]", false⟩,
  ⟨[117, 114, 109, 58, 105, 101, 116, 102, 58, 112, 97, 114, 97, 109, 115, 58, 115, 99, 105, 109, 58, 115, 99, 104, 101, 109, 97, 115, 58, 99, 111, 114, 101], false, [], [], [], [], [], [], "expecting the prefix to be the \"urn\" string (whatever case) [col 2]", false⟩,
  ⟨[117, 114, 110, 111, 58, 105, 101, 116, 102, 58, 112, 97, 114, 97, 109, 115, 58, 115, 99, 105, 109, 58, 115, 99, 104, 101, 109, 97, 115, 58, 99, 111, 114, 101], false, [], [], [], [], [], [], "expecting the prefix to be the \"urn\" string (whatever case) [col 3]", false⟩,
  ⟨[117, 114, 110, 111], false, [], [], [], [], [], [], "expecting the prefix to be the \"urn\" string (whatever case) [col 3]", false⟩,
  ⟨[85, 82, 78, 58, 97, 33, 63, 58, 120], false, [], [], [], [], [], [], "expecting the identifier to be string (1..31 alnum chars, also containing dashes but not at its beginning) [col 5]", false⟩,
  ⟨[117, 114, 110, 58, 85, 114, 110, 58, 78, 83, 83], false, [], [], [], [], [], [], "expecting the identifier to not contain the \"urn\" reserved string [col 7]", false⟩,
  ⟨[117, 114, 110, 58, 115, 112, 97, 122, 105, 111, 32, 98, 105, 97, 110, 99, 111, 58, 78, 83, 83], false, [], [], [], [], [], [], "expecting the identifier to be string (1..31 alnum chars, also containing dashes but not at its beginning) [col 10]", false⟩,
  ⟨[117, 114, 110, 58, 99, 111, 110, 99, 97, 58, 122, 32, 119, 115], false, [], [], [], [], [], [], "expecting the specific string to be a string containing alnum, hex, or others ([()+,-.:=@;$_!*']) chars [col 11]", false⟩,
  ⟨[117, 114, 110, 58, 105, 101, 116, 102, 58, 112, 97, 114, 97, 109, 115, 58, 115, 99, 105, 109, 58, 115, 99, 104, 101, 109, 97, 115, 58, 99, 111, 114, 101, 58, 50, 46, 38], false, [], [], [], [], [], [], "expecting the specific string to be a string containing alnum, hex, or others ([()+,-.:=@;$_!*']) chars [col 36]", false⟩,
  ⟨[117, 114, 110, 58], false, [], [], [], [], [], [], "expecting the identifier to be string (1..31 alnum chars, also containing dashes but not at its beginning) [col 4]", false⟩,
  ⟨[117, 114, 110, 58, 58], false, [], [], [], [], [], [], "expecting the identifier to be string (1..31 alnum chars, also containing dashes but not at its beginning) [col 4]", false⟩,
  ⟨[117, 114, 110, 58, 97, 58], false, [], [], [], [], [], [], "expecting the specific string to be a string containing alnum, hex, or others ([()+,-.:=@;$_!*']) chars [col 6]", false⟩,
  ⟨[117, 114, 110, 58, 97], false, [], [], [], [], [], [], "expecting the identifier to be string (1..31 alnum chars, also containing dashes but not at its beginning) [col 5]", false⟩,
  ⟨[117], false, [], [], [], [], [], [], "expecting the prefix to be the \"urn\" string (whatever case) [col 1]", false⟩,
  ⟨[117, 114], false, [], [], [], [], [], [], "expecting the prefix to be the \"urn\" string (whatever case) [col 2]", false⟩,
  ⟨[117, 114, 110], false, [], [], [], [], [], [], "expecting the prefix to be the \"urn\" string (whatever case) [col 3]", false⟩,
  ⟨[], false, [], [], [], [], [], [], "expecting the prefix to be the \"urn\" string (whatever case) [col 0]", false⟩]

example : ((urn2141OnlyTestCases.drop 0).take 12).all (check RFC2141Only) = true := by decide +kernel
example : ((urn2141OnlyTestCases.drop 12).take 12).all (check RFC2141Only) = true := by decide +kernel
example : ((urn2141OnlyTestCases.drop 24).take 12).all (check RFC2141Only) = true := by decide +kernel
example : ((urn2141OnlyTestCases.drop 36).take 12).all (check RFC2141Only) = true := by decide +kernel
example : ((urn2141OnlyTestCases.drop 48).take 12).all (check RFC2141Only) = true := by decide +kernel
example : ((urn2141OnlyTestCases.drop 60).take 12).all (check RFC2141Only) = true := by decide +kernel
example : ((urn2141OnlyTestCases.drop 72).take 12).all (check RFC2141Only) = true := by decide +kernel
example : ((urn2141OnlyTestCases.drop 84).take 12).all (check RFC2141Only) = true := by decide +kernel
example : urn2141OnlyTestCases.length = 92 := by decide

/-- /repo/tables_test.go `rfc8141TestCases` -/
def rfc8141TestCases : List Row := [
  ⟨[117, 114, 110, 58, 108, 101, 120, 58, 105, 116, 58, 109, 105, 110, 105, 115, 116, 101, 114, 111, 46, 103, 105, 117, 115, 116, 105, 122, 105, 97, 58, 100, 101, 99, 114, 101, 116, 111, 58, 49, 57, 57, 50, 45, 48, 55, 45, 50, 52, 59, 51, 53, 56, 126, 97, 114, 116, 53], true, [117, 114, 110], [108, 101, 120], [105, 116, 58, 109, 105, 110, 105, 115, 116, 101, 114, 111, 46, 103, 105, 117, 115, 116, 105, 122, 105, 97, 58, 100, 101, 99, 114, 101, 116, 111, 58, 49, 57, 57, 50, 45, 48, 55, 45, 50, 52, 59, 51, 53, 56, 126, 97, 114, 116, 53], [], [117, 114, 110, 58, 108, 101, 120, 58, 105, 116, 58, 109, 105, 110, 105, 115, 116, 101, 114, 111, 46, 103, 105, 117, 115, 116, 105, 122, 105, 97, 58, 100, 101, 99, 114, 101, 116, 111, 58, 49, 57, 57, 50, 45, 48, 55, 45, 50, 52, 59, 51, 53, 56, 126, 97, 114, 116, 53], [117, 114, 110, 58, 108, 101, 120, 58, 105, 116, 58, 109, 105, 110, 105, 115, 116, 101, 114, 111, 46, 103, 105, 117, 115, 116, 105, 122, 105, 97, 58, 100, 101, 99, 114, 101, 116, 111, 58, 49, 57, 57, 50, 45, 48, 55, 45, 50, 52, 59, 51, 53, 56, 126, 97, 114, 116, 53], "", false⟩,
  ⟨[117, 114, 110, 58, 110, 105, 100, 58, 110, 115, 115, 47], true, [117, 114, 110], [110, 105, 100], [110, 115, 115, 47], [], [117, 114, 110, 58, 110, 105, 100, 58, 110, 115, 115, 47], [117, 114, 110, 58, 110, 105, 100, 58, 110, 115, 115, 47], "", false⟩,
  ⟨[117, 114, 110, 58, 110, 105, 100, 58, 110, 115, 115, 38], true, [117, 114, 110], [110, 105, 100], [110, 115, 115, 38], [], [117, 114, 110, 58, 110, 105, 100, 58, 110, 115, 115, 38], [117, 114, 110, 58, 110, 105, 100, 58, 110, 115, 115, 38], "", false⟩,
  ⟨[117, 114, 110, 58, 101, 120, 97, 109, 112, 108, 101, 58, 49, 47, 52, 48, 54, 47, 52, 55, 52, 53, 50, 47, 50], true, [117, 114, 110], [101, 120, 97, 109, 112, 108, 101], [49, 47, 52, 48, 54, 47, 52, 55, 52, 53, 50, 47, 50], [], [117, 114, 110, 58, 101, 120, 97, 109, 112, 108, 101, 58, 49, 47, 52, 48, 54, 47, 52, 55, 52, 53, 50, 47, 50], [117, 114, 110, 58, 101, 120, 97, 109, 112, 108, 101, 58, 49, 47, 52, 48, 54, 47, 52, 55, 52, 53, 50, 47, 50], "", false⟩,
  ⟨[117, 114, 110, 58, 101, 120, 97, 109, 112, 108, 101, 58, 102, 111, 111, 45, 98, 97, 114, 45, 98, 97, 122, 45, 113, 117, 120, 63, 43, 67, 67, 82, 101, 115, 111, 108, 118, 101, 58, 99, 99, 61, 117, 107], true, [117, 114, 110], [101, 120, 97, 109, 112, 108, 101], [102, 111, 111, 45, 98, 97, 114, 45, 98, 97, 122, 45, 113, 117, 120], [67, 67, 82, 101, 115, 111, 108, 118, 101, 58, 99, 99, 61, 117, 107], [117, 114, 110, 58, 101, 120, 97, 109, 112, 108, 101, 58, 102, 111, 111, 45, 98, 97, 114, 45, 98, 97, 122, 45, 113, 117, 120, 63, 43, 67, 67, 82, 101, 115, 111, 108, 118, 101, 58, 99, 99, 61, 117, 107], [117, 114, 110, 58, 101, 120, 97, 109, 112, 108, 101, 58, 102, 111, 111, 45, 98, 97, 114, 45, 98, 97, 122, 45, 113, 117, 120], "", false⟩,
  ⟨[117, 114, 110, 58, 101, 120, 97, 109, 112, 108, 101, 58, 102, 111, 111, 45, 98, 97, 114, 45, 98, 97, 122, 45, 113, 117, 120, 63, 43, 38], true, [117, 114, 110], [101, 120, 97, 109, 112, 108, 101], [102, 111, 111, 45, 98, 97, 114, 45, 98, 97, 122, 45, 113, 117, 120], [38], [117, 114, 110, 58, 101, 120, 97, 109, 112, 108, 101, 58, 102, 111, 111, 45, 98, 97, 114, 45, 98, 97, 122, 45, 113, 117, 120, 63, 43, 38], [117, 114, 110, 58, 101, 120, 97, 109, 112, 108, 101, 58, 102, 111, 111, 45, 98, 97, 114, 45, 98, 97, 122, 45, 113, 117, 120], "", false⟩,
  ⟨[117, 114, 110, 58, 101, 120, 97, 109, 112, 108, 101, 58, 102, 111, 111, 45, 98, 97, 114, 45, 98, 97, 122, 45, 113, 117, 120, 63, 43, 126], true, [117, 114, 110], [101, 120, 97, 109, 112, 108, 101], [102, 111, 111, 45, 98, 97, 114, 45, 98, 97, 122, 45, 113, 117, 120], [126], [117, 114, 110, 58, 101, 120, 97, 109, 112, 108, 101, 58, 102, 111, 111, 45, 98, 97, 114, 45, 98, 97, 122, 45, 113, 117, 120, 63, 43, 126], [117, 114, 110, 58, 101, 120, 97, 109, 112, 108, 101, 58, 102, 111, 111, 45, 98, 97, 114, 45, 98, 97, 122, 45, 113, 117, 120], "", false⟩,
  ⟨[117, 114, 110, 58, 101, 120, 97, 109, 112, 108, 101, 58, 102, 111, 111, 45, 98, 97, 114, 45, 98, 97, 122, 45, 113, 117, 120, 63, 43, 37, 49, 54, 67, 67, 82, 101, 115, 111, 108, 118, 101, 58, 99, 99, 61, 117, 107], true, [117, 114, 110], [101, 120, 97, 109, 112, 108, 101], [102, 111, 111, 45, 98, 97, 114, 45, 98, 97, 122, 45, 113, 117, 120], [37, 49, 54, 67, 67, 82, 101, 115, 111, 108, 118, 101, 58, 99, 99, 61, 117, 107], [117, 114, 110, 58, 101, 120, 97, 109, 112, 108, 101, 58, 102, 111, 111, 45, 98, 97, 114, 45, 98, 97, 122, 45, 113, 117, 120, 63, 43, 37, 49, 54, 67, 67, 82, 101, 115, 111, 108, 118, 101, 58, 99, 99, 61, 117, 107], [117, 114, 110, 58, 101, 120, 97, 109, 112, 108, 101, 58, 102, 111, 111, 45, 98, 97, 114, 45, 98, 97, 122, 45, 113, 117, 120], "", false⟩,
  ⟨[117, 114, 110, 58, 101, 120, 97, 109, 112, 108, 101, 58, 102, 111, 111, 45, 98, 97, 114, 45, 98, 97, 122, 45, 113, 117, 116, 63, 43, 126, 38, 37, 70, 70, 40, 41, 43, 44, 45, 46, 58, 61, 64, 59, 36, 95, 33, 47, 63, 65, 108, 110, 117, 109, 49, 50, 51, 52, 53, 54], true, [117, 114, 110], [101, 120, 97, 109, 112, 108, 101], [102, 111, 111, 45, 98, 97, 114, 45, 98, 97, 122, 45, 113, 117, 116], [126, 38, 37, 70, 70, 40, 41, 43, 44, 45, 46, 58, 61, 64, 59, 36, 95, 33, 47, 63, 65, 108, 110, 117, 109, 49, 50, 51, 52, 53, 54], [117, 114, 110, 58, 101, 120, 97, 109, 112, 108, 101, 58, 102, 111, 111, 45, 98, 97, 114, 45, 98, 97, 122, 45, 113, 117, 116, 63, 43, 126, 38, 37, 70, 70, 40, 41, 43, 44, 45, 46, 58, 61, 64, 59, 36, 95, 33, 47, 63, 65, 108, 110, 117, 109, 49, 50, 51, 52, 53, 54], [117, 114, 110, 58, 101, 120, 97, 109, 112, 108, 101, 58, 102, 111, 111, 45, 98, 97, 114, 45, 98, 97, 122, 45, 113, 117, 116], "", false⟩,
  ⟨[117, 114, 110, 58, 101, 120, 97, 109, 112, 108, 101, 58, 119, 101, 97, 116, 104, 101, 114, 63, 61, 111, 112, 61, 109, 97, 112, 38, 108, 97, 116, 61, 51, 57, 46, 53, 54, 38, 108, 111, 110, 61, 45, 49, 48, 52, 46, 56, 53, 38, 100, 97, 116, 101, 116, 105, 109, 101, 61, 49, 57, 54, 57, 45, 48, 55, 45, 50, 49, 84, 48, 50, 58, 53, 54, 58, 49, 53, 90], true, [117, 114, 110], [101, 120, 97, 109, 112, 108, 101], [119, 101, 97, 116, 104, 101, 114], [], [117, 114, 110, 58, 101, 120, 97, 109, 112, 108, 101, 58, 119, 101, 97, 116, 104, 101, 114, 63, 61, 111, 112, 61, 109, 97, 112, 38, 108, 97, 116, 61, 51, 57, 46, 53, 54, 38, 108, 111, 110, 61, 45, 49, 48, 52, 46, 56, 53, 38, 100, 97, 116, 101, 116, 105, 109, 101, 61, 49, 57, 54, 57, 45, 48, 55, 45, 50, 49, 84, 48, 50, 58, 53, 54, 58, 49, 53, 90], [117, 114, 110, 58, 101, 120, 97, 109, 112, 108, 101, 58, 119, 101, 97, 116, 104, 101, 114], "", false⟩,
  ⟨[117, 114, 110, 58, 101, 115, 101, 109, 112, 105, 111, 58, 99, 108, 105, 109, 97, 116, 101, 63, 61, 97, 108, 110, 117, 109, 126, 38, 37, 70, 70, 40, 41, 43, 44, 45, 46, 58, 61, 64, 59, 36, 95, 33, 47, 63, 49, 50, 51, 52, 53, 54], true, [117, 114, 110], [101, 115, 101, 109, 112, 105, 111], [99, 108, 105, 109, 97, 116, 101], [], [117, 114, 110, 58, 101, 115, 101, 109, 112, 105, 111, 58, 99, 108, 105, 109, 97, 116, 101, 63, 61, 97, 108, 110, 117, 109, 126, 38, 37, 70, 70, 40, 41, 43, 44, 45, 46, 58, 61, 64, 59, 36, 95, 33, 47, 63, 49, 50, 51, 52, 53, 54], [117, 114, 110, 58, 101, 115, 101, 109, 112, 105, 111, 58, 99, 108, 105, 109, 97, 116, 101], "", false⟩,
  ⟨[117, 114, 110, 58, 101, 115, 101, 109, 112, 105, 111, 58, 99, 108, 105, 109, 97, 116, 101, 63, 61, 38, 38], true, [117, 114, 110], [101, 115, 101, 109, 112, 105, 111], [99, 108, 105, 109, 97, 116, 101], [], [117, 114, 110, 58, 101, 115, 101, 109, 112, 105, 111, 58, 99, 108, 105, 109, 97, 116, 101, 63, 61, 38, 38], [117, 114, 110, 58, 101, 115, 101, 109, 112, 105, 111, 58, 99, 108, 105, 109, 97, 116, 101], "", false⟩,
  ⟨[117, 114, 110, 58, 101, 115, 101, 109, 112, 105, 111, 58, 99, 108, 105, 109, 97, 116, 101, 63, 61, 37, 65, 49, 97, 108, 110, 117, 109, 126, 38, 37, 70, 70, 40, 41, 43, 44, 45, 46, 58, 61, 64, 59, 36, 95, 33, 47, 63, 49, 50, 51, 52, 53, 54], true, [117, 114, 110], [101, 115, 101, 109, 112, 105, 111], [99, 108, 105, 109, 97, 116, 101], [], [117, 114, 110, 58, 101, 115, 101, 109, 112, 105, 111, 58, 99, 108, 105, 109, 97, 116, 101, 63, 61, 37, 65, 49, 97, 108, 110, 117, 109, 126, 38, 37, 70, 70, 40, 41, 43, 44, 45, 46, 58, 61, 64, 59, 36, 95, 33, 47, 63, 49, 50, 51, 52, 53, 54], [117, 114, 110, 58, 101, 115, 101, 109, 112, 105, 111, 58, 99, 108, 105, 109, 97, 116, 101], "", false⟩,
  ⟨[117, 114, 110, 58, 101, 120, 97, 109, 112, 108, 101, 58, 102, 111, 111, 45, 98, 97, 114, 45, 98, 97, 122, 45, 113, 117, 120, 35, 115, 111, 109, 101, 112, 97, 114, 116], true, [117, 114, 110], [101, 120, 97, 109, 112, 108, 101], [102, 111, 111, 45, 98, 97, 114, 45, 98, 97, 122, 45, 113, 117, 120], [], [117, 114, 110, 58, 101, 120, 97, 109, 112, 108, 101, 58, 102, 111, 111, 45, 98, 97, 114, 45, 98, 97, 122, 45, 113, 117, 120, 35, 115, 111, 109, 101, 112, 97, 114, 116], [117, 114, 110, 58, 101, 120, 97, 109, 112, 108, 101, 58, 102, 111, 111, 45, 98, 97, 114, 45, 98, 97, 122, 45, 113, 117, 120], "", false⟩,
  ⟨[117, 114, 110, 58, 101, 120, 97, 109, 112, 108, 101, 58, 102, 111, 111, 45, 98, 97, 114, 45, 98, 97, 122, 45, 113, 117, 120, 35, 126, 38], true, [117, 114, 110], [101, 120, 97, 109, 112, 108, 101], [102, 111, 111, 45, 98, 97, 114, 45, 98, 97, 122, 45, 113, 117, 120], [], [117, 114, 110, 58, 101, 120, 97, 109, 112, 108, 101, 58, 102, 111, 111, 45, 98, 97, 114, 45, 98, 97, 122, 45, 113, 117, 120, 35, 126, 38], [117, 114, 110, 58, 101, 120, 97, 109, 112, 108, 101, 58, 102, 111, 111, 45, 98, 97, 114, 45, 98, 97, 122, 45, 113, 117, 120], "", false⟩,
  ⟨[117, 114, 110, 58, 101, 120, 97, 109, 112, 108, 101, 58, 102, 111, 111, 45, 98, 97, 114, 45, 98, 97, 122, 45, 113, 117, 120, 35, 97, 108, 110, 117, 109, 126, 38, 37, 70, 70, 40, 41, 43, 44, 45, 46, 58, 61, 64, 59, 36, 95, 33, 47, 63, 49, 50, 51, 52, 53, 54], true, [117, 114, 110], [101, 120, 97, 109, 112, 108, 101], [102, 111, 111, 45, 98, 97, 114, 45, 98, 97, 122, 45, 113, 117, 120], [], [117, 114, 110, 58, 101, 120, 97, 109, 112, 108, 101, 58, 102, 111, 111, 45, 98, 97, 114, 45, 98, 97, 122, 45, 113, 117, 120, 35, 97, 108, 110, 117, 109, 126, 38, 37, 70, 70, 40, 41, 43, 44, 45, 46, 58, 61, 64, 59, 36, 95, 33, 47, 63, 49, 50, 51, 52, 53, 54], [117, 114, 110, 58, 101, 120, 97, 109, 112, 108, 101, 58, 102, 111, 111, 45, 98, 97, 114, 45, 98, 97, 122, 45, 113, 117, 120], "", false⟩,
  ⟨[117, 114, 110, 58, 101, 120, 97, 109, 112, 108, 101, 58, 102, 111, 111, 45, 98, 97, 114, 45, 98, 97, 122, 45, 113, 117, 120, 35, 37, 68, 48, 97, 108, 110, 117, 109, 126, 38, 37, 70, 70, 40, 41, 43, 44, 45, 46, 58, 61, 64, 59, 36, 95, 33, 47, 63, 49, 50, 51, 52, 53, 54], true, [117, 114, 110], [101, 120, 97, 109, 112, 108, 101], [102, 111, 111, 45, 98, 97, 114, 45, 98, 97, 122, 45, 113, 117, 120], [], [117, 114, 110, 58, 101, 120, 97, 109, 112, 108, 101, 58, 102, 111, 111, 45, 98, 97, 114, 45, 98, 97, 122, 45, 113, 117, 120, 35, 37, 68, 48, 97, 108, 110, 117, 109, 126, 38, 37, 70, 70, 40, 41, 43, 44, 45, 46, 58, 61, 64, 59, 36, 95, 33, 47, 63, 49, 50, 51, 52, 53, 54], [117, 114, 110, 58, 101, 120, 97, 109, 112, 108, 101, 58, 102, 111, 111, 45, 98, 97, 114, 45, 98, 97, 122, 45, 113, 117, 120], "", false⟩,
  ⟨[117, 114, 110, 58, 101, 120, 97, 109, 112, 108, 101, 58, 67, 97, 109, 101, 108, 67, 97, 115, 101, 49, 47, 52, 48, 54, 47, 52, 55, 52, 53, 50, 47, 50, 63, 43, 67, 99, 61, 105, 116, 38, 112, 114, 101, 102, 105, 120, 61, 51, 57, 63, 61, 108, 97, 116, 61, 52, 49, 46, 50, 50, 50, 53, 53, 38, 108, 111, 110, 103, 61, 49, 54, 46, 48, 54, 53, 57, 54, 35, 102, 114, 97, 103], true, [117, 114, 110], [101, 120, 97, 109, 112, 108, 101], [67, 97, 109, 101, 108, 67, 97, 115, 101, 49, 47, 52, 48, 54, 47, 52, 55, 52, 53, 50, 47, 50], [67, 99, 61, 105, 116, 38, 112, 114, 101, 102, 105, 120, 61, 51, 57], [117, 114, 110, 58, 101, 120, 97, 109, 112, 108, 101, 58, 67, 97, 109, 101, 108, 67, 97, 115, 101, 49, 47, 52, 48, 54, 47, 52, 55, 52, 53, 50, 47, 50, 63, 43, 67, 99, 61, 105, 116, 38, 112, 114, 101, 102, 105, 120, 61, 51, 57, 63, 61, 108, 97, 116, 61, 52, 49, 46, 50, 50, 50, 53, 53, 38, 108, 111, 110, 103, 61, 49, 54, 46, 48, 54, 53, 57, 54, 35, 102, 114, 97, 103], [117, 114, 110, 58, 101, 120, 97, 109, 112, 108, 101, 58, 67, 97, 109, 101, 108, 67, 97, 115, 101, 49, 47, 52, 48, 54, 47, 52, 55, 52, 53, 50, 47, 50], "", false⟩,
  ⟨[117, 114, 110, 58, 101, 120, 97, 109, 112, 108, 101, 58, 67, 97, 109, 101, 108, 67, 97, 115, 101, 49, 47, 52, 48, 54, 47, 52, 55, 52, 53, 50, 47, 50, 63, 61, 108, 97, 116, 61, 52, 49, 46, 50, 50, 50, 53, 53, 38, 108, 111, 110, 103, 61, 49, 54, 46, 48, 54, 53, 57, 54, 35, 102, 114, 97, 103], true, [117, 114, 110], [101, 120, 97, 109, 112, 108, 101], [67, 97, 109, 101, 108, 67, 97, 115, 101, 49, 47, 52, 48, 54, 47, 52, 55, 52, 53, 50, 47, 50], [], [117, 114, 110, 58, 101, 120, 97, 109, 112, 108, 101, 58, 67, 97, 109, 101, 108, 67, 97, 115, 101, 49, 47, 52, 48, 54, 47, 52, 55, 52, 53, 50, 47, 50, 63, 61, 108, 97, 116, 61, 52, 49, 46, 50, 50, 50, 53, 53, 38, 108, 111, 110, 103, 61, 49, 54, 46, 48, 54, 53, 57, 54, 35, 102, 114, 97, 103], [117, 114, 110, 58, 101, 120, 97, 109, 112, 108, 101, 58, 67, 97, 109, 101, 108, 67, 97, 115, 101, 49, 47, 52, 48, 54, 47, 52, 55, 52, 53, 50, 47, 50], "", false⟩,
  ⟨[117, 114, 110, 58, 101, 120, 97, 109, 112, 108, 101, 58, 67, 97, 109, 101, 108, 67, 97, 115, 101, 49, 47, 52, 48, 54, 47, 52, 55, 52, 53, 50, 47, 50, 63, 61, 108, 97, 116, 61, 52, 49, 46, 50, 50, 50, 53, 53, 38, 108, 111, 110, 103, 61, 49, 54, 46, 48, 54, 53, 57, 54, 35, 102, 114, 97, 103, 63, 115, 111, 109, 101, 47, 115, 108, 97, 115, 104, 47, 126, 37, 68, 48], true, [117, 114, 110], [101, 120, 97, 109, 112, 108, 101], [67, 97, 109, 101, 108, 67, 97, 115, 101, 49, 47, 52, 48, 54, 47, 52, 55, 52, 53, 50, 47, 50], [], [117, 114, 110, 58, 101, 120, 97, 109, 112, 108, 101, 58, 67, 97, 109, 101, 108, 67, 97, 115, 101, 49, 47, 52, 48, 54, 47, 52, 55, 52, 53, 50, 47, 50, 63, 61, 108, 97, 116, 61, 52, 49, 46, 50, 50, 50, 53, 53, 38, 108, 111, 110, 103, 61, 49, 54, 46, 48, 54, 53, 57, 54, 35, 102, 114, 97, 103, 63, 115, 111, 109, 101, 47, 115, 108, 97, 115, 104, 47, 126, 37, 68, 48], [117, 114, 110, 58, 101, 120, 97, 109, 112, 108, 101, 58, 67, 97, 109, 101, 108, 67, 97, 115, 101, 49, 47, 52, 48, 54, 47, 52, 55, 52, 53, 50, 47, 50], "", false⟩,
  ⟨[117, 114, 110, 58, 101, 120, 97, 109, 112, 108, 101, 58, 67, 97, 109, 101, 108, 67, 97, 115, 101, 49, 47, 52, 48, 54, 47, 52, 55, 52, 53, 50, 47, 50, 63, 43, 67, 99, 61, 105, 116, 38, 112, 114, 101, 102, 105, 120, 61, 51, 57, 63, 61, 108, 97, 116, 61, 52, 49, 46, 50, 50, 50, 53, 53, 38, 108, 111, 110, 103, 61, 49, 54, 46, 48, 54, 53, 57, 54], true, [117, 114, 110], [101, 120, 97, 109, 112, 108, 101], [67, 97, 109, 101, 108, 67, 97, 115, 101, 49, 47, 52, 48, 54, 47, 52, 55, 52, 53, 50, 47, 50], [67, 99, 61, 105, 116, 38, 112, 114, 101, 102, 105, 120, 61, 51, 57], [117, 114, 110, 58, 101, 120, 97, 109, 112, 108, 101, 58, 67, 97, 109, 101, 108, 67, 97, 115, 101, 49, 47, 52, 48, 54, 47, 52, 55, 52, 53, 50, 47, 50, 63, 43, 67, 99, 61, 105, 116, 38, 112, 114, 101, 102, 105, 120, 61, 51, 57, 63, 61, 108, 97, 116, 61, 52, 49, 46, 50, 50, 50, 53, 53, 38, 108, 111, 110, 103, 61, 49, 54, 46, 48, 54, 53, 57, 54], [117, 114, 110, 58, 101, 120, 97, 109, 112, 108, 101, 58, 67, 97, 109, 101, 108, 67, 97, 115, 101, 49, 47, 52, 48, 54, 47, 52, 55, 52, 53, 50, 47, 50], "", false⟩,
  ⟨[117, 114, 110, 58, 84, 69, 83, 84, 116, 51, 115, 116, 58, 38, 47, 57, 56, 55, 47, 81, 87, 69, 82, 84, 89, 85, 73, 79, 80, 47, 48, 35], true, [117, 114, 110], [84, 69, 83, 84, 116, 51, 115, 116], [38, 47, 57, 56, 55, 47, 81, 87, 69, 82, 84, 89, 85, 73, 79, 80, 47, 48], [], [117, 114, 110, 58, 84, 69, 83, 84, 116, 51, 115, 116, 58, 38, 47, 57, 56, 55, 47, 81, 87, 69, 82, 84, 89, 85, 73, 79, 80, 47, 48], [117, 114, 110, 58, 116, 101, 115, 116, 116, 51, 115, 116, 58, 38, 47, 57, 56, 55, 47, 81, 87, 69, 82, 84, 89, 85, 73, 79, 80, 47, 48], "", false⟩,
  ⟨[117, 114, 110, 58, 101, 120, 97, 109, 112, 108, 101, 58, 37, 68, 48, 37, 66, 48, 49, 50, 51, 44, 122, 52, 53, 54], true, [117, 114, 110], [101, 120, 97, 109, 112, 108, 101], [37, 68, 48, 37, 66, 48, 49, 50, 51, 44, 122, 52, 53, 54], [], [117, 114, 110, 58, 101, 120, 97, 109, 112, 108, 101, 58, 37, 68, 48, 37, 66, 48, 49, 50, 51, 44, 122, 52, 53, 54], [117, 114, 110, 58, 101, 120, 97, 109, 112, 108, 101, 58, 37, 100, 48, 37, 98, 48, 49, 50, 51, 44, 122, 52, 53, 54], "", false⟩,
  ⟨[117, 114, 110, 58, 101, 120, 97, 109, 112, 108, 101, 58, 97, 112, 112, 108, 101, 58, 112, 101, 97, 114, 58, 112, 108, 117, 109, 58, 99, 104, 101, 114, 114, 121], true, [117, 114, 110], [101, 120, 97, 109, 112, 108, 101], [97, 112, 112, 108, 101, 58, 112, 101, 97, 114, 58, 112, 108, 117, 109, 58, 99, 104, 101, 114, 114, 121], [], [117, 114, 110, 58, 101, 120, 97, 109, 112, 108, 101, 58, 97, 112, 112, 108, 101, 58, 112, 101, 97, 114, 58, 112, 108, 117, 109, 58, 99, 104, 101, 114, 114, 121], [117, 114, 110, 58, 101, 120, 97, 109, 112, 108, 101, 58, 97, 112, 112, 108, 101, 58, 112, 101, 97, 114, 58, 112, 108, 117, 109, 58, 99, 104, 101, 114, 114, 121], "", false⟩,
  ⟨[117, 114, 110, 58, 122, 45, 45, 45, 45, 45, 45, 45, 45, 45, 45, 45, 45, 45, 45, 45, 45, 45, 45, 45, 45, 45, 45, 45, 45, 45, 45, 45, 45, 45, 45, 97, 58, 113], true, [117, 114, 110], [122, 45, 45, 45, 45, 45, 45, 45, 45, 45, 45, 45, 45, 45, 45, 45, 45, 45, 45, 45, 45, 45, 45, 45, 45, 45, 45, 45, 45, 45, 45, 97], [113], [], [117, 114, 110, 58, 122, 45, 45, 45, 45, 45, 45, 45, 45, 45, 45, 45, 45, 45, 45, 45, 45, 45, 45, 45, 45, 45, 45, 45, 45, 45, 45, 45, 45, 45, 45, 97, 58, 113], [117, 114, 110, 58, 122, 45, 45, 45, 45, 45, 45, 45, 45, 45, 45, 45, 45, 45, 45, 45, 45, 45, 45, 45, 45, 45, 45, 45, 45, 45, 45, 45, 45, 45, 45, 97, 58, 113], "", false⟩,
  ⟨[117, 114, 110, 58, 49, 48, 58, 50], true, [117, 114, 110], [49, 48], [50], [], [117, 114, 110, 58, 49, 48, 58, 50], [117, 114, 110, 58, 49, 48, 58, 50], "", false⟩,
  ⟨[117, 114, 110, 58, 97, 49, 108, 50, 110, 51, 109, 52, 45, 53, 54, 55, 56, 57, 97, 101, 105, 111, 117, 58, 50], true, [117, 114, 110], [97, 49, 108, 50, 110, 51, 109, 52, 45, 53, 54, 55, 56, 57, 97, 101, 105, 111, 117], [50], [], [117, 114, 110, 58, 97, 49, 108, 50, 110, 51, 109, 52, 45, 53, 54, 55, 56, 57, 97, 101, 105, 111, 117, 58, 50], [117, 114, 110, 58, 97, 49, 108, 50, 110, 51, 109, 52, 45, 53, 54, 55, 56, 57, 97, 101, 105, 111, 117, 58, 50], "", false⟩,
  ⟨[117, 114, 110, 58, 97, 49, 108, 50, 110, 51, 109, 52, 45, 53, 54, 55, 56, 57, 97, 101, 105, 111, 117, 58, 50, 37, 68, 48, 37, 66, 48], true, [117, 114, 110], [97, 49, 108, 50, 110, 51, 109, 52, 45, 53, 54, 55, 56, 57, 97, 101, 105, 111, 117], [50, 37, 68, 48, 37, 66, 48], [], [117, 114, 110, 58, 97, 49, 108, 50, 110, 51, 109, 52, 45, 53, 54, 55, 56, 57, 97, 101, 105, 111, 117, 58, 50, 37, 68, 48, 37, 66, 48], [117, 114, 110, 58, 97, 49, 108, 50, 110, 51, 109, 52, 45, 53, 54, 55, 56, 57, 97, 101, 105, 111, 117, 58, 50, 37, 100, 48, 37, 98, 48], "", false⟩,
  ⟨[117, 114, 110, 58, 97, 109, 112, 58, 38], true, [117, 114, 110], [97, 109, 112], [38], [], [117, 114, 110, 58, 97, 109, 112, 58, 38], [117, 114, 110, 58, 97, 109, 112, 58, 38], "", false⟩,
  ⟨[117, 114, 110, 58, 116, 105, 108, 100, 101, 58, 126, 126, 126], true, [117, 114, 110], [116, 105, 108, 100, 101], [126, 126, 126], [], [117, 114, 110, 58, 116, 105, 108, 100, 101, 58, 126, 126, 126], [117, 114, 110, 58, 116, 105, 108, 100, 101, 58, 126, 126, 126], "", false⟩,
  ⟨[117, 114, 110, 58, 115, 105, 103, 110, 115, 58, 40, 41, 43, 44, 45, 46, 58, 61, 64, 59, 36, 95, 33, 42, 97, 108, 110, 117, 109, 49, 50, 51, 52, 53, 54, 55, 56, 57], true, [117, 114, 110], [115, 105, 103, 110, 115], [40, 41, 43, 44, 45, 46, 58, 61, 64, 59, 36, 95, 33, 42, 97, 108, 110, 117, 109, 49, 50, 51, 52, 53, 54, 55, 56, 57], [], [117, 114, 110, 58, 115, 105, 103, 110, 115, 58, 40, 41, 43, 44, 45, 46, 58, 61, 64, 59, 36, 95, 33, 42, 97, 108, 110, 117, 109, 49, 50, 51, 52, 53, 54, 55, 56, 57], [117, 114, 110, 58, 115, 105, 103, 110, 115, 58, 40, 41, 43, 44, 45, 46, 58, 61, 64, 59, 36, 95, 33, 42, 97, 108, 110, 117, 109, 49, 50, 51, 52, 53, 54, 55, 56, 57], "", false⟩,
  ⟨[85, 82, 78, 58, 115, 105, 103, 110, 115, 58, 40, 41, 43, 44, 45, 46, 58, 61, 64, 59, 36, 95, 33, 42, 97, 108, 110, 117, 109, 49, 50, 51, 52, 53, 54, 55, 56, 57], true, [85, 82, 78], [115, 105, 103, 110, 115], [40, 41, 43, 44, 45, 46, 58, 61, 64, 59, 36, 95, 33, 42, 97, 108, 110, 117, 109, 49, 50, 51, 52, 53, 54, 55, 56, 57], [], [85, 82, 78, 58, 115, 105, 103, 110, 115, 58, 40, 41, 43, 44, 45, 46, 58, 61, 64, 59, 36, 95, 33, 42, 97, 108, 110, 117, 109, 49, 50, 51, 52, 53, 54, 55, 56, 57], [117, 114, 110, 58, 115, 105, 103, 110, 115, 58, 40, 41, 43, 44, 45, 46, 58, 61, 64, 59, 36, 95, 33, 42, 97, 108, 110, 117, 109, 49, 50, 51, 52, 53, 54, 55, 56, 57], "", false⟩,
  ⟨[117, 114, 110, 58, 117, 114, 110, 45, 55, 58, 105, 110, 102, 111, 114, 109, 97, 108], true, [117, 114, 110], [117, 114, 110, 45, 55], [105, 110, 102, 111, 114, 109, 97, 108], [], [117, 114, 110, 58, 117, 114, 110, 45, 55, 58, 105, 110, 102, 111, 114, 109, 97, 108], [117, 114, 110, 58, 117, 114, 110, 45, 55, 58, 105, 110, 102, 111, 114, 109, 97, 108], "", false⟩,
  ⟨[117, 114, 110, 58, 101, 120, 58, 101, 120, 63, 43, 97, 63], true, [117, 114, 110], [101, 120], [101, 120], [97, 63], [117, 114, 110, 58, 101, 120, 58, 101, 120, 63, 43, 97, 63], [117, 114, 110, 58, 101, 120, 58, 101, 120], "", false⟩,
  ⟨[117, 114, 110, 58, 117, 114, 110, 45, 48, 58, 110, 115, 115], false, [], [], [], [], [], [], "informal URN namespace must be in the form urn-[1-9][0-9] [col 7]", false⟩,
  ⟨[117, 114, 110, 58, 117, 114, 110, 45, 115, 58, 110, 115, 115], false, [], [], [], [], [], [], "informal URN namespace must be in the form urn-[1-9][0-9] [col 7]", false⟩,
  ⟨[117, 114, 110, 58, 101, 120, 97, 109, 112, 108, 101, 58, 208, 176, 49, 50, 51, 44, 122, 52, 53, 54], false, [], [], [], [], [], [], "expecting the specific string to contain alnum, hex, or others ([~&()+,-.:=@;$_!*'] or [/?] not in first position) chars [col 12]", false⟩,
  ⟨[85, 82, 78, 58, 45, 108, 101, 97, 100, 105, 110, 103, 58, 119], false, [], [], [], [], [], [], "expecting the indentifier to be a string with (length 2 to 32 chars) containing alnum (or dashes) not starting or ending with a dash [col 4]", false⟩,
  ⟨[85, 82, 78, 58, 116, 114, 97, 105, 108, 105, 110, 103, 45, 58, 119], false, [], [], [], [], [], [], "expecting the indentifier to be a string with (length 2 to 32 chars) containing alnum (or dashes) not starting or ending with a dash [col 13]", false⟩,
  ⟨[117, 114, 110, 58, 97, 58, 110, 115, 115], false, [], [], [], [], [], [], "expecting the indentifier to be a string with (length 2 to 32 chars) containing alnum (or dashes) not starting or ending with a dash [col 5]", false⟩,
  ⟨[117, 114, 110, 58, 49, 58, 110, 115, 115], false, [], [], [], [], [], [], "expecting the indentifier to be a string with (length 2 to 32 chars) containing alnum (or dashes) not starting or ending with a dash [col 5]", false⟩,
  ⟨[117, 114, 110, 58, 121, 122, 45, 58, 110, 115, 115], false, [], [], [], [], [], [], "expecting the indentifier to be a string with (length 2 to 32 chars) containing alnum (or dashes) not starting or ending with a dash [col 7]", false⟩,
  ⟨[117, 114, 110, 58, 57, 120, 45, 58, 110, 115, 115], false, [], [], [], [], [], [], "expecting the indentifier to be a string with (length 2 to 32 chars) containing alnum (or dashes) not starting or ending with a dash [col 7]", false⟩,
  ⟨[117, 114, 110, 58, 88, 45, 58, 110, 115, 115], false, [], [], [], [], [], [], "expecting the indentifier to be a string with (length 2 to 32 chars) containing alnum (or dashes) not starting or ending with a dash [col 6]", false⟩,
  ⟨[117, 114, 110, 58, 120, 110, 45, 45, 58, 110, 115, 115], false, [], [], [], [], [], [], "expecting the indentifier to be a string with (length 2 to 32 chars) containing alnum (or dashes) not starting or ending with a dash [col 8]", false⟩,
  ⟨[117, 114, 110, 58, 115, 115, 45, 45, 58, 110, 115, 115], false, [], [], [], [], [], [], "expecting the indentifier to be a string with (length 2 to 32 chars) containing alnum (or dashes) not starting or ending with a dash [col 8]", false⟩,
  ⟨[117, 114, 110, 58, 49, 69, 45, 45, 58, 110, 115, 115], false, [], [], [], [], [], [], "expecting the indentifier to be a string with (length 2 to 32 chars) containing alnum (or dashes) not starting or ending with a dash [col 8]", false⟩,
  ⟨[117, 114, 110, 58, 101, 120, 58, 101, 120, 63, 43, 97, 63, 43], false, [], [], [], [], [], [], "expecting only one r-component (starting with the ?+ sequence) [col 14]", false⟩,
  ⟨[117, 114, 110, 58, 101, 120, 58, 101, 120, 63, 43], false, [], [], [], [], [], [], "expecting a non-empty r-component containing alnum, hex, or others ([~&()+,-.:=@;$_!*'] or [/?] but not at its beginning) [col 11]", false⟩,
  ⟨[117, 114, 110, 58, 101, 120, 58, 101, 120, 63, 61, 97, 63, 61], false, [], [], [], [], [], [], "expecting only one q-component (starting with the ?= sequence) [col 14]", false⟩,
  ⟨[117, 114, 110, 58, 101, 120, 97, 109, 112, 108, 101, 58, 67, 97, 109, 101, 108, 67, 97, 115, 101, 49, 47, 52, 48, 54, 47, 52, 55, 52, 53, 50, 47, 50, 63, 61], false, [], [], [], [], [], [], "expecting a non-empty q-component containing alnum, hex, or others ([~&()+,-.:=@;$_!*'] or [/?] but not at its beginning) [col 36]", false⟩,
  ⟨[117, 114, 110, 58, 101, 120, 58, 101, 120, 63, 43, 114, 99, 111, 109, 112, 111, 110, 101, 110, 116, 63, 43, 114, 99, 111, 109, 112, 111, 110, 101, 110, 116, 63, 61, 113, 99, 111, 109, 112, 111, 110, 101, 110, 116], false, [], [], [], [], [], [], "expecting only one r-component (starting with the ?+ sequence) [col 23]", false⟩,
  ⟨[117, 114, 110, 58, 101, 120, 58, 101, 120, 63, 43, 114, 99, 111, 109, 112, 111, 110, 101, 110, 116, 63, 43, 114, 99, 111, 109, 112, 111, 110, 101, 110, 116, 63, 61], false, [], [], [], [], [], [], "expecting only one r-component (starting with the ?+ sequence) [col 23]", false⟩,
  ⟨[117, 114, 110, 58, 101, 120, 58, 101, 120, 63, 43, 114, 99, 111, 109, 112, 111, 110, 101, 110, 116, 63, 61, 113, 99, 111, 109, 112, 111, 110, 101, 110, 116, 63, 61, 113], false, [], [], [], [], [], [], "expecting only one q-component (starting with the ?= sequence) [col 35]", false⟩,
  ⟨[117, 114, 110, 58, 101, 120, 58, 101, 120, 63, 43, 63, 61, 113], false, [], [], [], [], [], [], "expecting a non-empty r-component containing alnum, hex, or others ([~&()+,-.:=@;$_!*'] or [/?] but not at its beginning) [col 12]", false⟩,
  ⟨[117, 114, 110, 58, 101, 120, 58, 101, 120, 63, 43, 47], false, [], [], [], [], [], [], "expecting a non-empty r-component containing alnum, hex, or others ([~&()+,-.:=@;$_!*'] or [/?] but not at its beginning) [col 11]", false⟩,
  ⟨[117, 114, 110, 58, 101, 120, 58, 101, 120, 63, 43, 63], false, [], [], [], [], [], [], "expecting a non-empty r-component containing alnum, hex, or others ([~&()+,-.:=@;$_!*'] or [/?] but not at its beginning) [col 12]", false⟩,
  ⟨[117, 114, 110, 58, 101, 120, 58, 101, 120, 63, 61, 47], false, [], [], [], [], [], [], "expecting a non-empty q-component containing alnum, hex, or others ([~&()+,-.:=@;$_!*'] or [/?] but not at its beginning) [col 11]", false⟩,
  ⟨[117, 114, 110, 58, 101, 120, 58, 101, 120, 63, 61, 63], false, [], [], [], [], [], [], "expecting a non-empty q-component containing alnum, hex, or others ([~&()+,-.:=@;$_!*'] or [/?] but not at its beginning) [col 12]", false⟩,
  ⟨[117, 114, 110, 58, 109, 109, 58, 47], false, [], [], [], [], [], [], "expecting the specific string to contain alnum, hex, or others ([~&()+,-.:=@;$_!*'] or [/?] not in first position) chars [col 7]", false⟩,
  ⟨[117, 114, 110, 58, 109, 109, 58, 63], false, [], [], [], [], [], [], "expecting the specific string to contain alnum, hex, or others ([~&()+,-.:=@;$_!*'] or [/?] not in first position) chars [col 7]", false⟩,
  ⟨[117, 114, 110, 58, 49, 50, 51, 52, 53, 54, 55, 56, 57, 45, 49, 50, 51, 52, 53, 54, 55, 56, 57, 48, 45, 97, 98, 99, 100, 101, 102, 103, 104, 105, 108, 109, 110, 58, 111], false, [], [], [], [], [], [], "expecting the indentifier to be a string with (length 2 to 32 chars) containing alnum (or dashes) not starting or ending with a dash [col 36]", false⟩,
  ⟨[117, 114, 110, 58], false, [], [], [], [], [], [], "expecting the indentifier to be a string with (length 2 to 32 chars) containing alnum (or dashes) not starting or ending with a dash [col 4]", false⟩,
  ⟨[117, 114, 110, 58, 58], false, [], [], [], [], [], [], "expecting the indentifier to be a string with (length 2 to 32 chars) containing alnum (or dashes) not starting or ending with a dash [col 4]", false⟩,
  ⟨[117, 114, 110, 58, 97, 97, 58], false, [], [], [], [], [], [], "expecting the specific string to contain alnum, hex, or others ([~&()+,-.:=@;$_!*'] or [/?] not in first position) chars [col 7]", false⟩,
  ⟨[117, 114, 110, 58, 97], false, [], [], [], [], [], [], "expecting the indentifier to be a string with (length 2 to 32 chars) containing alnum (or dashes) not starting or ending with a dash [col 5]", false⟩,
  ⟨[117, 114, 110, 58, 101, 120, 58, 101, 120, 63, 61, 37], false, [], [], [], [], [], [], "expecting the percent encoded chars to be well-formed (%alnum{2}) [col 12]", false⟩,
  ⟨[117, 114, 110, 58, 101, 120, 58, 101, 120, 63, 43, 37], false, [], [], [], [], [], [], "expecting the percent encoded chars to be well-formed (%alnum{2}) [col 12]", false⟩,
  ⟨[117, 114, 110, 58, 101, 120, 58, 101, 120, 63, 61, 115, 111, 109, 101, 116, 104, 105, 110, 103, 35, 37], false, [], [], [], [], [], [], "expecting the percent encoded chars to be well-formed (%alnum{2}) [col 22]", false⟩,
  ⟨[117, 114, 110, 58, 101, 120, 97, 109, 112, 108, 101, 37, 58, 116, 101, 115, 116], false, [], [], [], [], [], [], "expecting the indentifier to be a string with (length 2 to 32 chars) containing alnum (or dashes) not starting or ending with a dash [col 11]", false⟩,
  ⟨[117, 114, 110, 58, 34], false, [], [], [], [], [], [], "expecting the indentifier to be a string with (length 2 to 32 chars) containing alnum (or dashes) not starting or ending with a dash [col 4]", false⟩,
  ⟨[117, 114, 110, 58, 97, 49, 123, 125], false, [], [], [], [], [], [], "expecting the indentifier to be a string with (length 2 to 32 chars) containing alnum (or dashes) not starting or ending with a dash [col 6]", false⟩,
  ⟨[117], false, [], [], [], [], [], [], "expecting the prefix to be the \"urn\" string (whatever case) [col 1]", false⟩,
  ⟨[117, 114], false, [], [], [], [], [], [], "expecting the prefix to be the \"urn\" string (whatever case) [col 2]", false⟩,
  ⟨[117, 114, 110], false, [], [], [], [], [], [], "expecting the prefix to be the \"urn\" string (whatever case) [col 3]", false⟩]

example : ((rfc8141TestCases.drop 0).take 12).all (check RFC8141Only) = true := by decide +kernel
example : ((rfc8141TestCases.drop 12).take 12).all (check RFC8141Only) = true := by decide +kernel
example : ((rfc8141TestCases.drop 24).take 12).all (check RFC8141Only) = true := by decide +kernel
example : ((rfc8141TestCases.drop 36).take 12).all (check RFC8141Only) = true := by decide +kernel
example : ((rfc8141TestCases.drop 48).take 12).all (check RFC8141Only) = true := by decide +kernel
example : ((rfc8141TestCases.drop 60).take 12).all (check RFC8141Only) = true := by decide +kernel
example : ((rfc8141TestCases.drop 72).take 12).all (check RFC8141Only) = true := by decide +kernel
example : rfc8141TestCases.length = 75 := by decide

end Urn.Conformance
