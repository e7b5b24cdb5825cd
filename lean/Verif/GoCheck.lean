import Verif.GoClient
/-!
# Checks of the package, in Go

`checkGo` is a Go file of the kind that a user writes to test the package: every function of it calls functions and methods of
the package, and returns a bool that should be true.  `PropsCheck.lean` has theorems that it is true, whatever the arguments are
and whatever is in memory.
-/
set_option autoImplicit false
namespace Urn.GoLang

/-- The checks, in Go. -/
def checkGo : List String := [
  "package urn",
  "",
  "import (",
  "\t\"strings\"",
  "",
  "\tscimschema \"github.com/leodido/go-urn/scim/schema\"",
  ")",
  "",
  "// Parse leaves its input as it was.",
  "func unchanged(b []byte, mode ParsingMode) bool {",
  "\ts := string(b)",
  "\tParse(b, WithParsingMode(mode))",
  "\treturn string(b) == s",
  "}",
  "",
  "// A URN has no memory in common with the input.",
  "func independent(b []byte, mode ParsingMode, i int, c byte) bool {",
  "\tu, ok := Parse(b, WithParsingMode(mode))",
  "\tif !ok || u == nil {",
  "\t\treturn true",
  "\t}",
  "\ts := u.String()",
  "\tid := u.ID",
  "\tss := u.SS",
  "\tb[i] = c",
  "\treturn u.String() == s && u.ID == id && u.SS == ss",
  "}",
  "",
  "// Parse says true exactly if it returns a URN.",
  "func reports(b []byte, mode ParsingMode) bool {",
  "\tu, ok := Parse(b, WithParsingMode(mode))",
  "\treturn ok == (u != nil)",
  "}",
  "",
  "// A machine does not return a URN and an error, and Error returns the error again.",
  "func exclusive(b []byte, mode ParsingMode) bool {",
  "\tm := NewMachine(WithParsingMode(mode))",
  "\tu, err := m.Parse(b)",
  "\treturn (u == nil || err == nil) && (m.Error() == nil) == (err == nil)",
  "}",
  "",
  "// String returns what was parsed.",
  "func roundTrip(b []byte) bool {",
  "\tu, ok := Parse(b)",
  "\treturn !ok || u.String() == string(b)",
  "}",
  "",
  "// ID and SS are pieces of the input.",
  "func pieces(b []byte) bool {",
  "\tu, ok := Parse(b)",
  "\treturn !ok || strings.ToLower(string(b[0:3])) == \"urn\" && string(b[3:len(b)]) == \":\"+u.ID+\":\"+u.SS",
  "}",
  "",
  "// In RFC 8141 mode, so are the components.",
  "func pieces8141(b []byte) bool {",
  "\tu, ok := Parse(b, WithParsingMode(RFC8141Only))",
  "\tif !ok || u == nil {",
  "\t\treturn true",
  "\t}",
  "\ts := \":\" + u.ID + \":\" + u.SS",
  "\tif u.RComponent() != \"\" {",
  "\t\ts += \"?+\" + u.RComponent()",
  "\t}",
  "\tif u.QComponent() != \"\" {",
  "\t\ts += \"?=\" + u.QComponent()",
  "\t}",
  "\tif u.FComponent() != \"\" {",
  "\t\ts += \"#\" + u.FComponent()",
  "\t}",
  "\trest := string(b[3:len(b)])",
  "\treturn rest == s || u.FComponent() == \"\" && rest == s+\"#\"",
  "}",
  "",
  "// A SCIM URN is a URN, and its parts are the parts of SS.",
  "func scim(b []byte) bool {",
  "\tu, ok := Parse(b, WithParsingMode(RFC7643Only))",
  "\tif !ok {",
  "\t\treturn true",
  "\t}",
  "\tv, ok := Parse(b)",
  "\tif !ok || u.ID != \"ietf:params:scim\" || v.ID != \"ietf\" || v.SS != \"params:scim:\"+u.SS {",
  "\t\treturn false",
  "\t}",
  "\tx := u.SCIM()",
  "\ts := x.Type.String() + \":\" + x.Name",
  "\tif x.Other != \"\" {",
  "\t\ts += \":\" + x.Other",
  "\t}",
  "\treturn u.IsSCIM() && !v.IsSCIM() && u.SS == s && u.String() == v.String() && u.String() == string(b)",
  "}",
  "",
  "// What RFC 2141 and RFC 8141 mode accept, they take apart in the same way.",
  "func agree(b []byte) bool {",
  "\tu, ok := Parse(b)",
  "\tif !ok {",
  "\t\treturn true",
  "\t}",
  "\tv, ok := Parse(b, WithParsingMode(RFC8141Only))",
  "\tif !ok || v == nil {",
  "\t\treturn true",
  "\t}",
  "\treturn u.ID == v.ID && u.SS == v.SS && u.Equal(v) && v.RComponent() == \"\" && v.QComponent() == \"\" && v.FComponent() == \"\"",
  "}",
  "",
  "// Parsing what String returns gives the same URN.",
  "func stable(b []byte, mode ParsingMode) bool {",
  "\tu, ok := Parse(b, WithParsingMode(mode))",
  "\tif !ok || u == nil {",
  "\t\treturn true",
  "\t}",
  "\tv, ok := Parse([]byte(u.String()), WithParsingMode(mode))",
  "\treturn ok && v.String() == u.String() && v.ID == u.ID && v.SS == u.SS && v.RFC() == u.RFC() && v.Equal(u)",
  "}",
  "",
  "// Equal is reflexive, symmetric and transitive, and nothing is equal to nil.",
  "func equivalence(a []byte, b []byte, c []byte, x ParsingMode, y ParsingMode, z ParsingMode) bool {",
  "\tu, ok := Parse(a, WithParsingMode(x))",
  "\tif !ok || u == nil {",
  "\t\treturn true",
  "\t}",
  "\tv, ok := Parse(b, WithParsingMode(y))",
  "\tif !ok || v == nil {",
  "\t\treturn true",
  "\t}",
  "\tw, ok := Parse(c, WithParsingMode(z))",
  "\tif !ok || w == nil {",
  "\t\treturn true",
  "\t}",
  "\tif u.Equal(v) && v.Equal(w) && !u.Equal(w) {",
  "\t\treturn false",
  "\t}",
  "\treturn u.Equal(u) && u.Equal(v) == v.Equal(u) && !u.Equal(nil)",
  "}",
  "",
  "// The text of Normalize is a URN that is equal, and normal.",
  "func normal(b []byte, mode ParsingMode) bool {",
  "\tu, ok := Parse(b, WithParsingMode(mode))",
  "\tif !ok || u == nil {",
  "\t\treturn true",
  "\t}",
  "\tn := u.Normalize()",
  "\tv, ok := Parse([]byte(n.String()), WithParsingMode(mode))",
  "\treturn ok && u.Equal(v) && v.String() == n.String() && v.Normalize().String() == n.String() && n.ID == strings.ToLower(u.ID)",
  "}",
  "",
  "// URNs are equal if and only if their normal texts are.",
  "func canonical(a []byte, b []byte, mode ParsingMode) bool {",
  "\tu, ok := Parse(a, WithParsingMode(mode))",
  "\tif !ok || u == nil {",
  "\t\treturn true",
  "\t}",
  "\tv, ok := Parse(b, WithParsingMode(mode))",
  "\tif !ok || v == nil {",
  "\t\treturn true",
  "\t}",
  "\treturn u.Equal(v) == (u.Normalize().String() == v.Normalize().String())",
  "}",
  "",
  "// A machine that has been used before does the same as Parse, which makes a new one.",
  "func reuse(a []byte, b []byte, mode ParsingMode) bool {",
  "\tm := NewMachine(WithParsingMode(mode))",
  "\tm.Parse(a)",
  "\tu, err := m.Parse(b)",
  "\tv, ok := Parse(b, WithParsingMode(mode))",
  "\tif ok != (err == nil) || (u == nil) != (v == nil) {",
  "\t\treturn false",
  "\t}",
  "\treturn u == nil || u.String() == v.String() && u.ID == v.ID && u.SS == v.SS && u.RFC() == v.RFC() && u.Equal(v)",
  "}",
  "",
  "// The last mode counts.",
  "func last(b []byte, x ParsingMode, mode ParsingMode) bool {",
  "\tu, ok := Parse(b, WithParsingMode(x), WithParsingMode(mode))",
  "\tv, ok2 := Parse(b, WithParsingMode(mode))",
  "\tif ok != ok2 || (u == nil) != (v == nil) {",
  "\t\treturn false",
  "\t}",
  "\treturn u == nil || u.String() == v.String() && u.ID == v.ID && u.SS == v.SS && u.RFC() == v.RFC() && u.Equal(v)",
  "}",
  "",
  "// UnmarshalJSON reads what MarshalJSON writes.",
  "func jsonRoundTrip(b []byte) bool {",
  "\tu, ok := Parse(b)",
  "\tif !ok {",
  "\t\treturn true",
  "\t}",
  "\td, err := u.MarshalJSON()",
  "\tv := &URN{}",
  "\terr2 := v.UnmarshalJSON(d)",
  "\treturn err == nil && err2 == nil && v.String() == u.String() && v.ID == u.ID && v.SS == u.SS && v.Equal(u)",
  "}",
  "",
  "// UnmarshalJSON changes nothing if it fails.",
  "func unmarshalKeeps(b []byte, d []byte) bool {",
  "\tu, ok := Parse(b)",
  "\tif !ok {",
  "\t\treturn true",
  "\t}",
  "\ts := u.String()",
  "\tn := u.Normalize().String()",
  "\terr := u.UnmarshalJSON(d)",
  "\treturn err == nil || u.String() == s && u.Normalize().String() == n",
  "}",
  "",
  "// A URN that is made by hand.",
  "func built(id string, ss string) bool {",
  "\tu := &URN{ID: id, SS: ss}",
  "\tif id == \"\" || ss == \"\" {",
  "\t\treturn u.String() == \"\"",
  "\t}",
  "\treturn u.String() == \"urn:\"+id+\":\"+ss",
  "}",
  "",
  "// TypeFromString and String of types.",
  "func names(s string) bool {",
  "\tt := scimschema.TypeFromString(s)",
  "\treturn t.String() == s || t.String() == \"\" && s != \"schemas\" && s != \"api\" && s != \"param\"",
  "}"]

/-- The check `f` of the program `C`, which calls the functions of the package `P`, is done and returns `true`. -/
def Holds (P C : Prog) (X : Ext) (f : String) (vs : List Val) (h : Heap) : Prop :=
  ∃ h', Does (fun n => callClient P C X n f vs h) ([.bool true], h')

end Urn.GoLang
