import Verif.GoSpec
import Verif.Heap
/-!
# Clients with pointers

`Heap.lean` says what a client that keeps pointers can do.  Here the same things are done by Go functions, `clientGo`, which call
the functions and methods of the package; a program of a client is a sequence of calls of these functions, and each call can use
all pointers that the calls before it have returned.
-/
set_option autoImplicit false
namespace Urn.GoLang
open Heap (Mem Got Act)

/-- What clients do, in Go. -/
def clientGo : List String := [
  "package main",
  "",
  "func parse(s string, modes []ParsingMode) (*URN, bool) {",
  "\toptions := []Option{}",
  "\tfor _, x := range modes {",
  "\t\toptions = append(options, WithParsingMode(x))",
  "\t}",
  "\treturn Parse([]byte(s), options...)",
  "}",
  "",
  "func newURN() *URN {",
  "\treturn &URN{}",
  "}",
  "",
  "func newSCIM() *SCIM {",
  "\treturn &SCIM{}",
  "}",
  "",
  "func normalize(p *URN) *URN {",
  "\treturn p.Normalize()",
  "}",
  "",
  "func equal(p *URN, q *URN) bool {",
  "\treturn p.Equal(q)",
  "}",
  "",
  "func stringOf(p *URN) string {",
  "\treturn p.String()",
  "}",
  "",
  "func isSCIM(p *URN) bool {",
  "\treturn p.IsSCIM()",
  "}",
  "",
  "func scimOf(p *URN) *SCIM {",
  "\treturn p.SCIM()",
  "}",
  "",
  "func rfc(p *URN) Kind {",
  "\treturn p.RFC()",
  "}",
  "",
  "func rComponent(p *URN) string {",
  "\treturn p.RComponent()",
  "}",
  "",
  "func qComponent(p *URN) string {",
  "\treturn p.QComponent()",
  "}",
  "",
  "func fComponent(p *URN) string {",
  "\treturn p.FComponent()",
  "}",
  "",
  "func marshalJSON(p *URN) (string, error) {",
  "\tb, err := p.MarshalJSON()",
  "\treturn string(b), err",
  "}",
  "",
  "func unmarshalJSON(p *URN, s string) error {",
  "\treturn p.UnmarshalJSON([]byte(s))",
  "}",
  "",
  "func getID(p *URN) string {",
  "\treturn p.ID",
  "}",
  "",
  "func getSS(p *URN) string {",
  "\treturn p.SS",
  "}",
  "",
  "func setID(p *URN, v string) {",
  "\tp.ID = v",
  "}",
  "",
  "func setSS(p *URN, v string) {",
  "\tp.SS = v",
  "}",
  "",
  "func copyURN(p *URN, q *URN) {",
  "\t*p = *q",
  "}",
  "",
  "func scimString(p *SCIM) string {",
  "\treturn p.String()",
  "}",
  "",
  "func scimMarshalJSON(p *SCIM) (string, error) {",
  "\tb, err := p.MarshalJSON()",
  "\treturn string(b), err",
  "}",
  "",
  "func scimUnmarshalJSON(p *SCIM, s string) error {",
  "\treturn p.UnmarshalJSON([]byte(s))",
  "}",
  "",
  "func scimFields(p *SCIM) (scimschema.Type, string, string) {",
  "\treturn p.Type, p.Name, p.Other",
  "}",
  "",
  "func setType(p *SCIM, v scimschema.Type) {",
  "\tp.Type = v",
  "}",
  "",
  "func setName(p *SCIM, v string) {",
  "\tp.Name = v",
  "}",
  "",
  "func setOther(p *SCIM, v string) {",
  "\tp.Other = v",
  "}",
  "",
  "func copySCIM(p *SCIM, q *SCIM) {",
  "\t*p = *q",
  "}",
  "",
  "func marshal8141(p *URN) (string, error) {",
  "\tb, err := URN8141{p}.MarshalJSON()",
  "\treturn string(b), err",
  "}",
  "",
  "func unmarshal8141(p *URN, s string) (*URN, error) {",
  "\tu := &URN8141{p}",
  "\terr := u.UnmarshalJSON([]byte(s))",
  "\treturn u.URN, err",
  "}"]

/-- A call of one of these functions.  Pointers are given by numbers: `p` is the `p`-th pointer to a URN (to a SCIM struct) that
the client has got, or nil if it has not got that many. -/
inductive Step where
  | parse (s : Bytes) (modes : List ParsingMode)
  | newURN
  | newSCIM
  | normalize (p : Nat)
  | equal (p q : Nat)
  | stringOf (p : Nat)
  | isSCIM (p : Nat)
  | scimOf (p : Nat)
  | rfc (p : Nat)
  | rComponent (p : Nat)
  | qComponent (p : Nat)
  | fComponent (p : Nat)
  | marshalJSON (p : Nat)
  | unmarshalJSON (p : Nat) (s : Bytes)
  | getID (p : Nat)
  | getSS (p : Nat)
  | setID (p : Nat) (v : Bytes)
  | setSS (p : Nat) (v : Bytes)
  | copyURN (p q : Nat)
  | scimString (p : Nat)
  | scimMarshalJSON (p : Nat)
  | scimUnmarshalJSON (p : Nat) (s : Bytes)
  | scimFields (p : Nat)
  | setType (p : Nat) (v : Int)
  | setName (p : Nat) (v : Bytes)
  | setOther (p : Nat) (v : Bytes)
  | copySCIM (p q : Nat)
  | marshal8141 (p : Nat)
  | unmarshal8141 (p : Nat) (s : Bytes)

/-- The texts that are parsed and decoded are slices that Go can have. -/
def Step.Fits (X : Ext) : Step → Prop
  | .parse s _ => X.Fits s
  | .unmarshalJSON _ s | .scimUnmarshalJSON _ s | .unmarshal8141 _ s => X.FitsJson s
  | _ => True

/-- The pointers that a client has got. -/
structure Regs where
  urns : List (Option Nat) := []
  scims : List (Option Nat) := []

def Regs.urn (R : Regs) (p : Nat) : Option Nat := R.urns[p]?.join
def Regs.scim (R : Regs) (p : Nat) : Option Nat := R.scims[p]?.join

/-! ## In the text -/

/-- The function and its arguments. -/
def Step.text (R : Regs) : Step → String × List Val
  | .parse s modes => ("parse", [.str s, .list (modes.map (.int "ParsingMode"))])
  | .newURN => ("newURN", [])
  | .newSCIM => ("newSCIM", [])
  | .normalize p => ("normalize", [.ptr "URN" (R.urn p)])
  | .equal p q => ("equal", [.ptr "URN" (R.urn p), .ptr "URN" (R.urn q)])
  | .stringOf p => ("stringOf", [.ptr "URN" (R.urn p)])
  | .isSCIM p => ("isSCIM", [.ptr "URN" (R.urn p)])
  | .scimOf p => ("scimOf", [.ptr "URN" (R.urn p)])
  | .rfc p => ("rfc", [.ptr "URN" (R.urn p)])
  | .rComponent p => ("rComponent", [.ptr "URN" (R.urn p)])
  | .qComponent p => ("qComponent", [.ptr "URN" (R.urn p)])
  | .fComponent p => ("fComponent", [.ptr "URN" (R.urn p)])
  | .marshalJSON p => ("marshalJSON", [.ptr "URN" (R.urn p)])
  | .unmarshalJSON p s => ("unmarshalJSON", [.ptr "URN" (R.urn p), .str s])
  | .getID p => ("getID", [.ptr "URN" (R.urn p)])
  | .getSS p => ("getSS", [.ptr "URN" (R.urn p)])
  | .setID p v => ("setID", [.ptr "URN" (R.urn p), .str v])
  | .setSS p v => ("setSS", [.ptr "URN" (R.urn p), .str v])
  | .copyURN p q => ("copyURN", [.ptr "URN" (R.urn p), .ptr "URN" (R.urn q)])
  | .scimString p => ("scimString", [.ptr "SCIM" (R.scim p)])
  | .scimMarshalJSON p => ("scimMarshalJSON", [.ptr "SCIM" (R.scim p)])
  | .scimUnmarshalJSON p s => ("scimUnmarshalJSON", [.ptr "SCIM" (R.scim p), .str s])
  | .scimFields p => ("scimFields", [.ptr "SCIM" (R.scim p)])
  | .setType p v => ("setType", [.ptr "SCIM" (R.scim p), .int "Type" v])
  | .setName p v => ("setName", [.ptr "SCIM" (R.scim p), .str v])
  | .setOther p v => ("setOther", [.ptr "SCIM" (R.scim p), .str v])
  | .copySCIM p q => ("copySCIM", [.ptr "SCIM" (R.scim p), .ptr "SCIM" (R.scim q)])
  | .marshal8141 p => ("marshal8141", [.ptr "URN" (R.urn p)])
  | .unmarshal8141 p s => ("unmarshal8141", [.ptr "URN" (R.urn p), .str s])

/-- The pointers among results. -/
def Regs.addVals (R : Regs) (vs : List Val) : Regs where
  urns := R.urns ++ vs.filterMap fun | .ptr t p => if t = "URN" then some p else none | _ => none
  scims := R.scims ++ vs.filterMap fun | .ptr t p => if t = "SCIM" then some p else none | _ => none

/-- Call a function of the client program `C` with these arguments, in the package `P`. -/
def callClient (P C : Prog) (X : Ext) (n : Nat) (f : String) (vs : List Val) (h : Heap) : Res (List Val × Heap) := do
  let g ← .some! (findFn C none f)
  callFn P (callN P X n) g none vs false h

/-- Calls, one after the other: the results, the pointers and the memory. -/
def runText (P C : Prog) (X : Ext) (n : Nat) : List Step → Regs → Heap → Res (List (List Val) × Regs × Heap)
  | [], R, h => .ok ([], R, h)
  | s :: ss, R, h => do
      let (vs, h) ← callClient P C X n (s.text R).1 (s.text R).2 h
      let (vss, R, h) ← runText P C X n ss (R.addVals vs) h
      pure (vs :: vss, R, h)

/-! ## In the model -/

/-- What is done, as an action of `Heap.lean`. -/
def Step.act (R : Regs) : Step → Act
  | .parse s modes => .parse s (modes.map withParsingMode)
  | .newURN => .newURN
  | .newSCIM => .newSCIM
  | .normalize p => .normalize (R.urn p)
  | .equal p q => .equal (R.urn p) (R.urn q)
  | .stringOf p => .string (R.urn p)
  | .isSCIM p => .isSCIM (R.urn p)
  | .scimOf p => .scim (R.urn p)
  | .rfc p => .rfc (R.urn p)
  | .rComponent p => .rComponent (R.urn p)
  | .qComponent p => .qComponent (R.urn p)
  | .fComponent p => .fComponent (R.urn p)
  | .marshalJSON p => .marshalJSON (R.urn p)
  | .unmarshalJSON p s => .unmarshalJSON (R.urn p) s
  | .getID p => .id (R.urn p)
  | .getSS p => .ss (R.urn p)
  | .setID p v => .setID (R.urn p) v
  | .setSS p v => .setSS (R.urn p) v
  | .copyURN p q => .copy (R.urn p) (R.urn q)
  | .scimString p => .scimString (R.scim p)
  | .scimMarshalJSON p => .scimMarshalJSON (R.scim p)
  | .scimUnmarshalJSON p s => .scimUnmarshalJSON (R.scim p) s
  | .scimFields p => .scimFields (R.scim p)
  | .setType p v => .setType (R.scim p) v
  | .setName p v => .setName (R.scim p) v
  | .setOther p v => .setOther (R.scim p) v
  | .copySCIM p q => .copySCIM (R.scim p) (R.scim q)
  | .marshal8141 p => .marshal8141 (R.urn p)
  | .unmarshal8141 p s => .unmarshal8141 (R.urn p) s

/-- The pointers in a result. -/
def Regs.addGot (R : Regs) : Got → Regs
  | .urn p _ | .urn8141 p _ => { R with urns := R.urns ++ [p] }
  | .scim p => { R with scims := R.scims ++ [p] }
  | _ => R

/-- Actions, one after the other. -/
def runModel (X : Ext) : List Step → Regs → Mem → Run (List Got × Regs × Mem)
  | [], R, M => .ok ([], R, M)
  | s :: ss, R, M => do
      let (M, g) ← M.act X.uni X.json (s.act R)
      let (gs, R, M) ← runModel X ss (R.addGot g) M
      pure (g :: gs, R, M)

/-! ## What is the same -/

/-- The result of a step as Go values; `f` and `g` are the addresses of URNs and SCIM structs. -/
def Step.vals (X : Ext) (f g : Option Nat → Option Nat) : Step → Got → List Val
  | .parse _ _, .urn p ok => [.ptr "URN" (f p), .bool ok]
  | _, .urn p _ => [.ptr "URN" (f p)]
  | _, .scim p => [.ptr "SCIM" (g p)]
  | _, .bool b => [.bool b]
  | .marshalJSON _, .bytes b | .scimMarshalJSON _, .bytes b | .marshal8141 _, .bytes b => [.str b, .nil]
  | _, .bytes b => [.str b]
  | _, .kind k => [.int "Kind" (kindNum k)]
  | _, .fields t n o => [.int "Type" t, .str n, .str o]
  | .unmarshalJSON _ s, .err e | .scimUnmarshalJSON _ s, .err e => [jerrVal X s e]
  | .unmarshal8141 _ s, .urn8141 p e => [.ptr "URN" (f p), jerrVal X s e]
  | _, _ => []

def valsAll (X : Ext) (f g : Option Nat → Option Nat) (ss : List Step) (gs : List Got) : List (List Val) := List.zipWith (Step.vals X f g) ss gs

/-- Nil is nil, and different objects have different addresses. -/
def Inj (f : Option Nat → Option Nat) (n : Nat) : Prop :=
  f none = none ∧ ∀ i, i < n → (∃ a, f (some i) = some a) ∧ ∀ j, j < n → f (some i) = f (some j) → i = j

/-- Pointers at the end: which object each of them points to, and what is there. -/
def SameEnd (f g : Option Nat → Option Nat) (M : Mem) (R : Regs) (h : Heap) (R' : Regs) : Prop :=
  Inj f M.urns.length ∧ Inj g M.scims.length ∧ R'.urns = R.urns.map f ∧ R'.scims = R.scims.map g ∧
  (∀ i ∈ R.urns, i = none ∨ ∃ k x, i = some k ∧ M.urns[k]? = some x) ∧
  (∀ i ∈ R.scims, i = none ∨ ∃ k s, i = some k ∧ M.scims[k]? = some s) ∧
  (∀ (i : Nat) x, M.urns[i]? = some x → UrnPtr h (f (some i)) (some (M.value x))) ∧
  (∀ (i : Nat) s, M.scims[i]? = some s → ScimAt h (g (some i)) (some s))

end Urn.GoLang
