/-!
GENERATED by tools/source.py from the files in /repo - do not edit by hand.

# The text of the source files of the package, line by line
-/
namespace Urn.GoSource

/-- kind.go:1-10 -/
def kindGo : List String := [
  "package urn",
  "",
  "type Kind int",
  "",
  "const (",
  "\tNONE Kind = iota",
  "\tRFC2141",
  "\tRFC7643",
  "\tRFC8141",
  ")"]

/-- parsing_mode.go:1-12 -/
def parsingModeGo : List String := [
  "package urn",
  "",
  "type ParsingMode int",
  "",
  "const (",
  "\tDefault ParsingMode = iota",
  "\tRFC2141Only",
  "\tRFC7643Only",
  "\tRFC8141Only",
  ")",
  "",
  "const DefaultParsingMode = RFC2141Only"]

/-- options.go:1-9 -/
def optionsGo : List String := [
  "package urn",
  "",
  "type Option func(Machine)",
  "",
  "func WithParsingMode(mode ParsingMode) Option {",
  "\treturn func(m Machine) {",
  "\t\tm.WithParsingMode(mode)",
  "\t}",
  "}"]

/-- scim/schema/type.go:1-36 -/
def schemaTypeGo : List String := [
  "package scimschema",
  "",
  "type Type int",
  "",
  "const (",
  "\tUnsupported Type = iota",
  "\tSchemas",
  "\tAPI",
  "\tParam",
  ")",
  "",
  "func (t Type) String() string {",
  "\tswitch t {",
  "\tcase Schemas:",
  "\t\treturn \"schemas\"",
  "\tcase API:",
  "\t\treturn \"api\"",
  "\tcase Param:",
  "\t\treturn \"param\"",
  "\t}",
  "",
  "\treturn \"\"",
  "}",
  "",
  "func TypeFromString(input string) Type {",
  "\tswitch input {",
  "\tcase \"schemas\":",
  "\t\treturn Schemas",
  "\tcase \"api\":",
  "\t\treturn API",
  "\tcase \"param\":",
  "\t\treturn Param",
  "\t}",
  "",
  "\treturn Unsupported",
  "}"]

/-- scim.go:1-48 -/
def scimGo : List String := [
  "package urn",
  "",
  "import (",
  "\t\"encoding/json\"",
  "\t\"fmt\"",
  "",
  "\tscimschema \"github.com/leodido/go-urn/scim/schema\"",
  ")",
  "",
  "const errInvalidSCIMURN = \"invalid SCIM URN: %s\"",
  "",
  "type SCIM struct {",
  "\tType  scimschema.Type",
  "\tName  string",
  "\tOther string",
  "\tpos   int",
  "}",
  "",
  "func (s SCIM) MarshalJSON() ([]byte, error) {",
  "\treturn json.Marshal(s.String())",
  "}",
  "",
  "func (s *SCIM) UnmarshalJSON(bytes []byte) error {",
  "\tvar str string",
  "\tif err := json.Unmarshal(bytes, &str); err != nil {",
  "\t\treturn err",
  "\t}",
  "\t// Parse as SCIM",
  "\tvalue, ok := Parse([]byte(str), WithParsingMode(RFC7643Only))",
  "\tif !ok {",
  "\t\treturn fmt.Errorf(errInvalidSCIMURN, str)",
  "\t}",
  "\tif value.RFC() != RFC7643 {",
  "\t\treturn fmt.Errorf(errInvalidSCIMURN, str)",
  "\t}",
  "\t*s = *value.SCIM()",
  "",
  "\treturn nil",
  "}",
  "",
  "func (s *SCIM) String() string {",
  "\tret := fmt.Sprintf(\"urn:ietf:params:scim:%s:%s\", s.Type.String(), s.Name)",
  "\tif s.Other != \"\" {",
  "\t\tret += fmt.Sprintf(\":%s\", s.Other)",
  "\t}",
  "",
  "\treturn ret",
  "}"]

/-- urn.go:1-141 -/
def urnGo : List String := [
  "package urn",
  "",
  "import (",
  "\t\"encoding/json\"",
  "\t\"fmt\"",
  "\t\"strings\"",
  ")",
  "",
  "const errInvalidURN = \"invalid URN: %s\"",
  "",
  "// URN represents an Uniform Resource Name.",
  "//",
  "// The general form represented is:",
  "//",
  "//\turn:<id>:<ss>",
  "//",
  "// Details at https://tools.ietf.org/html/rfc2141.",
  "type URN struct {",
  "\tprefix     string // Static prefix. Equal to \"urn\" when empty.",
  "\tID         string // Namespace identifier (NID)",
  "\tSS         string // Namespace specific string (NSS)",
  "\tnorm       string // Normalized namespace specific string",
  "\tkind       Kind",
  "\tscim       *SCIM",
  "\trComponent string // RFC8141",
  "\tqComponent string // RFC8141",
  "\tfComponent string // RFC8141",
  "\trStart     bool   // RFC8141",
  "\tqStart     bool   // RFC8141",
  "\ttolower    []int",
  "}",
  "",
  "// Normalize turns the receiving URN into its norm version.",
  "//",
  "// Which means: lowercase prefix, lowercase namespace identifier, and immutate namespace specific string chars (except <hex> tokens which are lowercased).",
  "func (u *URN) Normalize() *URN {",
  "\treturn &URN{",
  "\t\tprefix: \"urn\",",
  "\t\tID:     strings.ToLower(u.ID),",
  "\t\tSS:     u.norm,",
  "\t\t// rComponent: u.rComponent,",
  "\t\t// qComponent: u.qComponent,",
  "\t\t// fComponent: u.fComponent,",
  "\t}",
  "}",
  "",
  "// Equal checks the lexical equivalence of the current URN with another one.",
  "func (u *URN) Equal(x *URN) bool {",
  "\tif x == nil {",
  "\t\treturn false",
  "\t}",
  "\tnu := u.Normalize()",
  "\tnx := x.Normalize()",
  "",
  "\treturn nu.prefix == nx.prefix && nu.ID == nx.ID && nu.SS == nx.SS",
  "}",
  "",
  "// String reassembles the URN into a valid URN string.",
  "//",
  "// This requires both ID and SS fields to be non-empty.",
  "// Otherwise it returns an empty string.",
  "//",
  "// Default URN prefix is \"urn\".",
  "func (u *URN) String() string {",
  "\tvar res string",
  "\tif u.ID != \"\" && u.SS != \"\" {",
  "\t\tif u.prefix == \"\" {",
  "\t\t\tres += \"urn\"",
  "\t\t}",
  "\t\tres += u.prefix + \":\" + u.ID + \":\" + u.SS",
  "\t\tif u.rComponent != \"\" {",
  "\t\t\tres += \"?+\" + u.rComponent",
  "\t\t}",
  "\t\tif u.qComponent != \"\" {",
  "\t\t\tres += \"?=\" + u.qComponent",
  "\t\t}",
  "\t\tif u.fComponent != \"\" {",
  "\t\t\tres += \"#\" + u.fComponent",
  "\t\t}",
  "\t}",
  "",
  "\treturn res",
  "}",
  "",
  "// Parse is responsible to create an URN instance from a byte array matching the correct URN syntax (RFC 2141).",
  "func Parse(u []byte, options ...Option) (*URN, bool) {",
  "\turn, err := NewMachine(options...).Parse(u)",
  "\tif err != nil {",
  "\t\treturn nil, false",
  "\t}",
  "",
  "\treturn urn, true",
  "}",
  "",
  "// MarshalJSON marshals the URN to JSON string form (e.g. `\"urn:oid:1.2.3.4\"`).",
  "func (u URN) MarshalJSON() ([]byte, error) {",
  "\treturn json.Marshal(u.String())",
  "}",
  "",
  "// UnmarshalJSON unmarshals a URN from JSON string form (e.g. `\"urn:oid:1.2.3.4\"`).",
  "func (u *URN) UnmarshalJSON(bytes []byte) error {",
  "\tvar str string",
  "\tif err := json.Unmarshal(bytes, &str); err != nil {",
  "\t\treturn err",
  "\t}",
  "\tif value, ok := Parse([]byte(str)); !ok {",
  "\t\treturn fmt.Errorf(errInvalidURN, str)",
  "\t} else {",
  "\t\t*u = *value",
  "\t}",
  "",
  "\treturn nil",
  "}",
  "",
  "func (u *URN) IsSCIM() bool {",
  "\treturn u.kind == RFC7643",
  "}",
  "",
  "func (u *URN) SCIM() *SCIM {",
  "\tif u.kind != RFC7643 {",
  "\t\treturn nil",
  "\t}",
  "",
  "\treturn u.scim",
  "}",
  "",
  "func (u *URN) RFC() Kind {",
  "\treturn u.kind",
  "}",
  "",
  "func (u *URN) FComponent() string {",
  "\treturn u.fComponent",
  "}",
  "",
  "func (u *URN) QComponent() string {",
  "\treturn u.qComponent",
  "}",
  "",
  "func (u *URN) RComponent() string {",
  "\treturn u.rComponent",
  "}"]

/-- urn8141.go:1-30 -/
def urn8141Go : List String := [
  "package urn",
  "",
  "import (",
  "\t\"encoding/json\"",
  "\t\"fmt\"",
  ")",
  "",
  "const errInvalidURN8141 = \"invalid URN per RFC 8141: %s\"",
  "",
  "type URN8141 struct {",
  "\t*URN",
  "}",
  "",
  "func (u URN8141) MarshalJSON() ([]byte, error) {",
  "\treturn json.Marshal(u.String())",
  "}",
  "",
  "func (u *URN8141) UnmarshalJSON(bytes []byte) error {",
  "\tvar str string",
  "\tif err := json.Unmarshal(bytes, &str); err != nil {",
  "\t\treturn err",
  "\t}",
  "\tif value, ok := Parse([]byte(str), WithParsingMode(RFC8141Only)); !ok {",
  "\t\treturn fmt.Errorf(errInvalidURN8141, str)",
  "\t} else {",
  "\t\t*u = URN8141{value}",
  "\t}",
  "",
  "\treturn nil",
  "}"]

/-- machine.go:1-200 -/
def machineGo0 : List String := [
  "package urn",
  "",
  "import (",
  "\t\"fmt\"",
  "",
  "\tscimschema \"github.com/leodido/go-urn/scim/schema\"",
  ")",
  "",
  "var (",
  "\terrPrefix              = \"expecting the prefix to be the \\\"urn\\\" string (whatever case) [col %d]\"",
  "\terrIdentifier          = \"expecting the identifier to be string (1..31 alnum chars, also containing dashes but not at its beginning) [col %d]\"",
  "\terrSpecificString      = \"expecting the specific string to be a string containing alnum, hex, or others ([()+,-.:=@;$_!*']) chars [col %d]\"",
  "\terrNoUrnWithinID       = \"expecting the identifier to not contain the \\\"urn\\\" reserved string [col %d]\"",
  "\terrHex                 = \"expecting the percent encoded chars to be well-formed (%%alnum{2}) [col %d]\"",
  "\terrSCIMNamespace       = \"expecing the SCIM namespace identifier (ietf:params:scim) [col %d]\"",
  "\terrSCIMType            = \"expecting a correct SCIM type (schemas, api, param) [col %d]\"",
  "\terrSCIMName            = \"expecting one or more alnum char in the SCIM name part [col %d]\"",
  "\terrSCIMOther           = \"expecting a well-formed other SCIM part [col %d]\"",
  "\terrSCIMOtherIncomplete = \"expecting a not empty SCIM other part after colon [col %d]\"",
  "\terr8141InformalID      = \"informal URN namespace must be in the form urn-[1-9][0-9] [col %d]\"",
  "\terr8141SpecificString  = \"expecting the specific string to contain alnum, hex, or others ([~&()+,-.:=@;$_!*'] or [/?] not in first position) chars [col %d]\"",
  "\terr8141Identifier      = \"expecting the indentifier to be a string with (length 2 to 32 chars) containing alnum (or dashes) not starting or ending with a dash [col %d]\"",
  "\terr8141RComponentStart = \"expecting only one r-component (starting with the ?+ sequence) [col %d]\"",
  "\terr8141QComponentStart = \"expecting only one q-component (starting with the ?= sequence) [col %d]\"",
  "\terr8141MalformedRComp  = \"expecting a non-empty r-component containing alnum, hex, or others ([~&()+,-.:=@;$_!*'] or [/?] but not at its beginning) [col %d]\"",
  "\terr8141MalformedQComp  = \"expecting a non-empty q-component containing alnum, hex, or others ([~&()+,-.:=@;$_!*'] or [/?] but not at its beginning) [col %d]\"",
  ")",
  "var _toStateActions []byte = []byte{",
  "\t0, 0, 0, 0, 0, 0, 0, 0,",
  "\t0, 0, 0, 0, 0, 0, 0, 0,",
  "\t0, 0, 0, 0, 0, 0, 0, 0,",
  "\t0, 0, 0, 0, 0, 0, 0, 0,",
  "\t0, 0, 0, 0, 0, 0, 0, 0,",
  "\t0, 0, 0, 0, 0, 0, 0, 0,",
  "\t0, 0, 0, 0, 0, 0, 0, 0,",
  "\t0, 0, 0, 0, 0, 0, 0, 0,",
  "\t0, 0, 0, 0, 0, 0, 0, 0,",
  "\t0, 0, 0, 0, 0, 0, 0, 0,",
  "\t0, 0, 0, 0, 0, 0, 0, 0,",
  "\t0, 0, 0, 0, 0, 0, 0, 0,",
  "\t0, 0, 0, 0, 0, 0, 0, 0,",
  "\t0, 0, 0, 0, 0, 0, 0, 0,",
  "\t0, 0, 0, 0, 0, 0, 0, 0,",
  "\t0, 0, 0, 0, 0, 0, 0, 0,",
  "\t0, 0, 0, 0, 0, 0, 0, 0,",
  "\t0, 0, 0, 0, 0, 0, 0, 0,",
  "\t0, 0, 0, 0, 0, 0, 0, 0,",
  "\t0, 0, 0, 0, 0, 0, 0, 0,",
  "\t0, 0, 0, 0, 0, 0, 0, 0,",
  "\t0, 0, 0, 33, 0, 0, 0, 0,",
  "\t0, 0, 0, 0, 0, 0, 0, 0,",
  "\t0, 0, 0, 0, 0, 0, 0, 0,",
  "\t0, 0,",
  "}",
  "",
  "var _eofActions []byte = []byte{",
  "\t0, 1, 1, 1, 1, 4, 6, 6,",
  "\t6, 6, 6, 6, 6, 6, 6, 6,",
  "\t6, 6, 6, 6, 6, 6, 6, 6,",
  "\t6, 6, 6, 6, 6, 6, 6, 6,",
  "\t6, 6, 6, 6, 6, 6, 8, 9,",
  "\t9, 4, 4, 11, 1, 1, 1, 1,",
  "\t12, 12, 12, 12, 12, 12, 12, 12,",
  "\t12, 12, 12, 12, 12, 12, 12, 12,",
  "\t12, 14, 14, 14, 14, 16, 18, 20,",
  "\t20, 14, 14, 14, 14, 14, 14, 14,",
  "\t14, 14, 14, 1, 1, 1, 1, 21,",
  "\t22, 22, 22, 22, 22, 22, 22, 22,",
  "\t22, 22, 22, 22, 22, 22, 22, 22,",
  "\t22, 22, 22, 22, 22, 22, 22, 22,",
  "\t22, 22, 22, 22, 22, 22, 22, 22,",
  "\t23, 24, 24, 25, 25, 0, 26, 28,",
  "\t28, 29, 29, 30, 30, 26, 26, 31,",
  "\t31, 22, 22, 22, 22, 22, 22, 22,",
  "\t22, 22, 22, 22, 22, 22, 22, 22,",
  "\t22, 22, 22, 22, 22, 22, 22, 22,",
  "\t22, 22, 22, 22, 22, 22, 22, 21,",
  "\t21, 22, 22, 22, 34, 34, 35, 37,",
  "\t37, 38, 40, 41, 41, 38, 42, 42,",
  "\t42, 44, 42, 48, 48, 48, 50, 44,",
  "\t50, 0,",
  "}",
  "",
  "const start int = 1",
  "const firstFinal int = 172",
  "",
  "const enScimOnly int = 44",
  "const enRfc8141Only int = 83",
  "const enFail int = 193",
  "const enMain int = 1",
  "",
  "// Machine is the interface representing the FSM",
  "type Machine interface {",
  "\tError() error",
  "\tParse(input []byte) (*URN, error)",
  "\tWithParsingMode(ParsingMode)",
  "}",
  "",
  "type machine struct {",
  "\tdata           []byte",
  "\tcs             int",
  "\tp, pe, eof, pb int",
  "\terr            error",
  "\tstartParsingAt int",
  "\tparsingMode    ParsingMode",
  "\tparsingModeSet bool",
  "}",
  "",
  "// NewMachine creates a new FSM able to parse RFC 2141 strings.",
  "func NewMachine(options ...Option) Machine {",
  "\tm := &machine{",
  "\t\tparsingModeSet: false,",
  "\t}",
  "",
  "\tfor _, o := range options {",
  "\t\to(m)",
  "\t}",
  "\t// Set default parsing mode",
  "\tif !m.parsingModeSet {",
  "\t\tm.WithParsingMode(DefaultParsingMode)",
  "\t}",
  "",
  "\treturn m",
  "}",
  "",
  "// Err returns the error that occurred on the last call to Parse.",
  "//",
  "// If the result is nil, then the line was parsed successfully.",
  "func (m *machine) Error() error {",
  "\treturn m.err",
  "}",
  "",
  "func (m *machine) text() []byte {",
  "\treturn m.data[m.pb:m.p]",
  "}",
  "",
  "// Parse parses the input byte array as a RFC 2141 or RFC7643 string.",
  "func (m *machine) Parse(input []byte) (*URN, error) {",
  "\tm.data = input",
  "\tm.p = 0",
  "\tm.pb = 0",
  "\tm.pe = len(input)",
  "\tm.eof = len(input)",
  "\tm.err = nil",
  "\tm.cs = m.startParsingAt",
  "\toutput := &URN{",
  "\t\ttolower: []int{},",
  "\t}",
  "\t{",
  "\t\tif (m.p) == (m.pe) {",
  "\t\t\tgoto _testEof",
  "\t\t}",
  "\t\tif m.cs == 0 {",
  "\t\t\tgoto _out",
  "\t\t}",
  "\t_resume:",
  "\t\tswitch m.cs {",
  "\t\tcase 1:",
  "\t\t\tswitch (m.data)[(m.p)] {",
  "\t\t\tcase 85:",
  "\t\t\t\tgoto tr1",
  "\t\t\tcase 117:",
  "\t\t\t\tgoto tr1",
  "\t\t\t}",
  "\t\t\tgoto tr0",
  "\t\tcase 0:",
  "\t\t\tgoto _out",
  "\t\tcase 2:",
  "\t\t\tswitch (m.data)[(m.p)] {",
  "\t\t\tcase 82:",
  "\t\t\t\tgoto tr2",
  "\t\t\tcase 114:",
  "\t\t\t\tgoto tr2",
  "\t\t\t}",
  "\t\t\tgoto tr0",
  "\t\tcase 3:",
  "\t\t\tswitch (m.data)[(m.p)] {",
  "\t\t\tcase 78:",
  "\t\t\t\tgoto tr3",
  "\t\t\tcase 110:",
  "\t\t\t\tgoto tr3",
  "\t\t\t}",
  "\t\t\tgoto tr0",
  "\t\tcase 4:",
  "\t\t\tif (m.data)[(m.p)] == 58 {",
  "\t\t\t\tgoto tr4",
  "\t\t\t}",
  "\t\t\tgoto tr0",
  "\t\tcase 5:",
  "\t\t\tswitch (m.data)[(m.p)] {",
  "\t\t\tcase 85:",
  "\t\t\t\tgoto tr7",
  "\t\t\tcase 117:",
  "\t\t\t\tgoto tr7",
  "\t\t\t}",
  "\t\t\tswitch {",
  "\t\t\tcase (m.data)[(m.p)] < 65:",
  "\t\t\t\tif 48 <= (m.data)[(m.p)] && (m.data)[(m.p)] <= 57 {",
  "\t\t\t\t\tgoto tr6",
  "\t\t\t\t}"]

/-- machine.go:201-400 -/
def machineGo1 : List String := [
  "\t\t\tcase (m.data)[(m.p)] > 90:",
  "\t\t\t\tif 97 <= (m.data)[(m.p)] && (m.data)[(m.p)] <= 122 {",
  "\t\t\t\t\tgoto tr6",
  "\t\t\t\t}",
  "\t\t\tdefault:",
  "\t\t\t\tgoto tr6",
  "\t\t\t}",
  "\t\t\tgoto tr5",
  "\t\tcase 6:",
  "\t\t\tswitch (m.data)[(m.p)] {",
  "\t\t\tcase 45:",
  "\t\t\t\tgoto tr9",
  "\t\t\tcase 58:",
  "\t\t\t\tgoto tr10",
  "\t\t\t}",
  "\t\t\tswitch {",
  "\t\t\tcase (m.data)[(m.p)] < 65:",
  "\t\t\t\tif 48 <= (m.data)[(m.p)] && (m.data)[(m.p)] <= 57 {",
  "\t\t\t\t\tgoto tr9",
  "\t\t\t\t}",
  "\t\t\tcase (m.data)[(m.p)] > 90:",
  "\t\t\t\tif 97 <= (m.data)[(m.p)] && (m.data)[(m.p)] <= 122 {",
  "\t\t\t\t\tgoto tr9",
  "\t\t\t\t}",
  "\t\t\tdefault:",
  "\t\t\t\tgoto tr9",
  "\t\t\t}",
  "\t\t\tgoto tr8",
  "\t\tcase 7:",
  "\t\t\tswitch (m.data)[(m.p)] {",
  "\t\t\tcase 45:",
  "\t\t\t\tgoto tr11",
  "\t\t\tcase 58:",
  "\t\t\t\tgoto tr10",
  "\t\t\t}",
  "\t\t\tswitch {",
  "\t\t\tcase (m.data)[(m.p)] < 65:",
  "\t\t\t\tif 48 <= (m.data)[(m.p)] && (m.data)[(m.p)] <= 57 {",
  "\t\t\t\t\tgoto tr11",
  "\t\t\t\t}",
  "\t\t\tcase (m.data)[(m.p)] > 90:",
  "\t\t\t\tif 97 <= (m.data)[(m.p)] && (m.data)[(m.p)] <= 122 {",
  "\t\t\t\t\tgoto tr11",
  "\t\t\t\t}",
  "\t\t\tdefault:",
  "\t\t\t\tgoto tr11",
  "\t\t\t}",
  "\t\t\tgoto tr8",
  "\t\tcase 8:",
  "\t\t\tswitch (m.data)[(m.p)] {",
  "\t\t\tcase 45:",
  "\t\t\t\tgoto tr12",
  "\t\t\tcase 58:",
  "\t\t\t\tgoto tr10",
  "\t\t\t}",
  "\t\t\tswitch {",
  "\t\t\tcase (m.data)[(m.p)] < 65:",
  "\t\t\t\tif 48 <= (m.data)[(m.p)] && (m.data)[(m.p)] <= 57 {",
  "\t\t\t\t\tgoto tr12",
  "\t\t\t\t}",
  "\t\t\tcase (m.data)[(m.p)] > 90:",
  "\t\t\t\tif 97 <= (m.data)[(m.p)] && (m.data)[(m.p)] <= 122 {",
  "\t\t\t\t\tgoto tr12",
  "\t\t\t\t}",
  "\t\t\tdefault:",
  "\t\t\t\tgoto tr12",
  "\t\t\t}",
  "\t\t\tgoto tr8",
  "\t\tcase 9:",
  "\t\t\tswitch (m.data)[(m.p)] {",
  "\t\t\tcase 45:",
  "\t\t\t\tgoto tr13",
  "\t\t\tcase 58:",
  "\t\t\t\tgoto tr10",
  "\t\t\t}",
  "\t\t\tswitch {",
  "\t\t\tcase (m.data)[(m.p)] < 65:",
  "\t\t\t\tif 48 <= (m.data)[(m.p)] && (m.data)[(m.p)] <= 57 {",
  "\t\t\t\t\tgoto tr13",
  "\t\t\t\t}",
  "\t\t\tcase (m.data)[(m.p)] > 90:",
  "\t\t\t\tif 97 <= (m.data)[(m.p)] && (m.data)[(m.p)] <= 122 {",
  "\t\t\t\t\tgoto tr13",
  "\t\t\t\t}",
  "\t\t\tdefault:",
  "\t\t\t\tgoto tr13",
  "\t\t\t}",
  "\t\t\tgoto tr8",
  "\t\tcase 10:",
  "\t\t\tswitch (m.data)[(m.p)] {",
  "\t\t\tcase 45:",
  "\t\t\t\tgoto tr14",
  "\t\t\tcase 58:",
  "\t\t\t\tgoto tr10",
  "\t\t\t}",
  "\t\t\tswitch {",
  "\t\t\tcase (m.data)[(m.p)] < 65:",
  "\t\t\t\tif 48 <= (m.data)[(m.p)] && (m.data)[(m.p)] <= 57 {",
  "\t\t\t\t\tgoto tr14",
  "\t\t\t\t}",
  "\t\t\tcase (m.data)[(m.p)] > 90:",
  "\t\t\t\tif 97 <= (m.data)[(m.p)] && (m.data)[(m.p)] <= 122 {",
  "\t\t\t\t\tgoto tr14",
  "\t\t\t\t}",
  "\t\t\tdefault:",
  "\t\t\t\tgoto tr14",
  "\t\t\t}",
  "\t\t\tgoto tr8",
  "\t\tcase 11:",
  "\t\t\tswitch (m.data)[(m.p)] {",
  "\t\t\tcase 45:",
  "\t\t\t\tgoto tr15",
  "\t\t\tcase 58:",
  "\t\t\t\tgoto tr10",
  "\t\t\t}",
  "\t\t\tswitch {",
  "\t\t\tcase (m.data)[(m.p)] < 65:",
  "\t\t\t\tif 48 <= (m.data)[(m.p)] && (m.data)[(m.p)] <= 57 {",
  "\t\t\t\t\tgoto tr15",
  "\t\t\t\t}",
  "\t\t\tcase (m.data)[(m.p)] > 90:",
  "\t\t\t\tif 97 <= (m.data)[(m.p)] && (m.data)[(m.p)] <= 122 {",
  "\t\t\t\t\tgoto tr15",
  "\t\t\t\t}",
  "\t\t\tdefault:",
  "\t\t\t\tgoto tr15",
  "\t\t\t}",
  "\t\t\tgoto tr8",
  "\t\tcase 12:",
  "\t\t\tswitch (m.data)[(m.p)] {",
  "\t\t\tcase 45:",
  "\t\t\t\tgoto tr16",
  "\t\t\tcase 58:",
  "\t\t\t\tgoto tr10",
  "\t\t\t}",
  "\t\t\tswitch {",
  "\t\t\tcase (m.data)[(m.p)] < 65:",
  "\t\t\t\tif 48 <= (m.data)[(m.p)] && (m.data)[(m.p)] <= 57 {",
  "\t\t\t\t\tgoto tr16",
  "\t\t\t\t}",
  "\t\t\tcase (m.data)[(m.p)] > 90:",
  "\t\t\t\tif 97 <= (m.data)[(m.p)] && (m.data)[(m.p)] <= 122 {",
  "\t\t\t\t\tgoto tr16",
  "\t\t\t\t}",
  "\t\t\tdefault:",
  "\t\t\t\tgoto tr16",
  "\t\t\t}",
  "\t\t\tgoto tr8",
  "\t\tcase 13:",
  "\t\t\tswitch (m.data)[(m.p)] {",
  "\t\t\tcase 45:",
  "\t\t\t\tgoto tr17",
  "\t\t\tcase 58:",
  "\t\t\t\tgoto tr10",
  "\t\t\t}",
  "\t\t\tswitch {",
  "\t\t\tcase (m.data)[(m.p)] < 65:",
  "\t\t\t\tif 48 <= (m.data)[(m.p)] && (m.data)[(m.p)] <= 57 {",
  "\t\t\t\t\tgoto tr17",
  "\t\t\t\t}",
  "\t\t\tcase (m.data)[(m.p)] > 90:",
  "\t\t\t\tif 97 <= (m.data)[(m.p)] && (m.data)[(m.p)] <= 122 {",
  "\t\t\t\t\tgoto tr17",
  "\t\t\t\t}",
  "\t\t\tdefault:",
  "\t\t\t\tgoto tr17",
  "\t\t\t}",
  "\t\t\tgoto tr8",
  "\t\tcase 14:",
  "\t\t\tswitch (m.data)[(m.p)] {",
  "\t\t\tcase 45:",
  "\t\t\t\tgoto tr18",
  "\t\t\tcase 58:",
  "\t\t\t\tgoto tr10",
  "\t\t\t}",
  "\t\t\tswitch {",
  "\t\t\tcase (m.data)[(m.p)] < 65:",
  "\t\t\t\tif 48 <= (m.data)[(m.p)] && (m.data)[(m.p)] <= 57 {",
  "\t\t\t\t\tgoto tr18",
  "\t\t\t\t}",
  "\t\t\tcase (m.data)[(m.p)] > 90:",
  "\t\t\t\tif 97 <= (m.data)[(m.p)] && (m.data)[(m.p)] <= 122 {",
  "\t\t\t\t\tgoto tr18",
  "\t\t\t\t}",
  "\t\t\tdefault:",
  "\t\t\t\tgoto tr18",
  "\t\t\t}",
  "\t\t\tgoto tr8",
  "\t\tcase 15:",
  "\t\t\tswitch (m.data)[(m.p)] {",
  "\t\t\tcase 45:",
  "\t\t\t\tgoto tr19",
  "\t\t\tcase 58:",
  "\t\t\t\tgoto tr10",
  "\t\t\t}",
  "\t\t\tswitch {",
  "\t\t\tcase (m.data)[(m.p)] < 65:",
  "\t\t\t\tif 48 <= (m.data)[(m.p)] && (m.data)[(m.p)] <= 57 {",
  "\t\t\t\t\tgoto tr19",
  "\t\t\t\t}"]

/-- machine.go:401-600 -/
def machineGo2 : List String := [
  "\t\t\tcase (m.data)[(m.p)] > 90:",
  "\t\t\t\tif 97 <= (m.data)[(m.p)] && (m.data)[(m.p)] <= 122 {",
  "\t\t\t\t\tgoto tr19",
  "\t\t\t\t}",
  "\t\t\tdefault:",
  "\t\t\t\tgoto tr19",
  "\t\t\t}",
  "\t\t\tgoto tr8",
  "\t\tcase 16:",
  "\t\t\tswitch (m.data)[(m.p)] {",
  "\t\t\tcase 45:",
  "\t\t\t\tgoto tr20",
  "\t\t\tcase 58:",
  "\t\t\t\tgoto tr10",
  "\t\t\t}",
  "\t\t\tswitch {",
  "\t\t\tcase (m.data)[(m.p)] < 65:",
  "\t\t\t\tif 48 <= (m.data)[(m.p)] && (m.data)[(m.p)] <= 57 {",
  "\t\t\t\t\tgoto tr20",
  "\t\t\t\t}",
  "\t\t\tcase (m.data)[(m.p)] > 90:",
  "\t\t\t\tif 97 <= (m.data)[(m.p)] && (m.data)[(m.p)] <= 122 {",
  "\t\t\t\t\tgoto tr20",
  "\t\t\t\t}",
  "\t\t\tdefault:",
  "\t\t\t\tgoto tr20",
  "\t\t\t}",
  "\t\t\tgoto tr8",
  "\t\tcase 17:",
  "\t\t\tswitch (m.data)[(m.p)] {",
  "\t\t\tcase 45:",
  "\t\t\t\tgoto tr21",
  "\t\t\tcase 58:",
  "\t\t\t\tgoto tr10",
  "\t\t\t}",
  "\t\t\tswitch {",
  "\t\t\tcase (m.data)[(m.p)] < 65:",
  "\t\t\t\tif 48 <= (m.data)[(m.p)] && (m.data)[(m.p)] <= 57 {",
  "\t\t\t\t\tgoto tr21",
  "\t\t\t\t}",
  "\t\t\tcase (m.data)[(m.p)] > 90:",
  "\t\t\t\tif 97 <= (m.data)[(m.p)] && (m.data)[(m.p)] <= 122 {",
  "\t\t\t\t\tgoto tr21",
  "\t\t\t\t}",
  "\t\t\tdefault:",
  "\t\t\t\tgoto tr21",
  "\t\t\t}",
  "\t\t\tgoto tr8",
  "\t\tcase 18:",
  "\t\t\tswitch (m.data)[(m.p)] {",
  "\t\t\tcase 45:",
  "\t\t\t\tgoto tr22",
  "\t\t\tcase 58:",
  "\t\t\t\tgoto tr10",
  "\t\t\t}",
  "\t\t\tswitch {",
  "\t\t\tcase (m.data)[(m.p)] < 65:",
  "\t\t\t\tif 48 <= (m.data)[(m.p)] && (m.data)[(m.p)] <= 57 {",
  "\t\t\t\t\tgoto tr22",
  "\t\t\t\t}",
  "\t\t\tcase (m.data)[(m.p)] > 90:",
  "\t\t\t\tif 97 <= (m.data)[(m.p)] && (m.data)[(m.p)] <= 122 {",
  "\t\t\t\t\tgoto tr22",
  "\t\t\t\t}",
  "\t\t\tdefault:",
  "\t\t\t\tgoto tr22",
  "\t\t\t}",
  "\t\t\tgoto tr8",
  "\t\tcase 19:",
  "\t\t\tswitch (m.data)[(m.p)] {",
  "\t\t\tcase 45:",
  "\t\t\t\tgoto tr23",
  "\t\t\tcase 58:",
  "\t\t\t\tgoto tr10",
  "\t\t\t}",
  "\t\t\tswitch {",
  "\t\t\tcase (m.data)[(m.p)] < 65:",
  "\t\t\t\tif 48 <= (m.data)[(m.p)] && (m.data)[(m.p)] <= 57 {",
  "\t\t\t\t\tgoto tr23",
  "\t\t\t\t}",
  "\t\t\tcase (m.data)[(m.p)] > 90:",
  "\t\t\t\tif 97 <= (m.data)[(m.p)] && (m.data)[(m.p)] <= 122 {",
  "\t\t\t\t\tgoto tr23",
  "\t\t\t\t}",
  "\t\t\tdefault:",
  "\t\t\t\tgoto tr23",
  "\t\t\t}",
  "\t\t\tgoto tr8",
  "\t\tcase 20:",
  "\t\t\tswitch (m.data)[(m.p)] {",
  "\t\t\tcase 45:",
  "\t\t\t\tgoto tr24",
  "\t\t\tcase 58:",
  "\t\t\t\tgoto tr10",
  "\t\t\t}",
  "\t\t\tswitch {",
  "\t\t\tcase (m.data)[(m.p)] < 65:",
  "\t\t\t\tif 48 <= (m.data)[(m.p)] && (m.data)[(m.p)] <= 57 {",
  "\t\t\t\t\tgoto tr24",
  "\t\t\t\t}",
  "\t\t\tcase (m.data)[(m.p)] > 90:",
  "\t\t\t\tif 97 <= (m.data)[(m.p)] && (m.data)[(m.p)] <= 122 {",
  "\t\t\t\t\tgoto tr24",
  "\t\t\t\t}",
  "\t\t\tdefault:",
  "\t\t\t\tgoto tr24",
  "\t\t\t}",
  "\t\t\tgoto tr8",
  "\t\tcase 21:",
  "\t\t\tswitch (m.data)[(m.p)] {",
  "\t\t\tcase 45:",
  "\t\t\t\tgoto tr25",
  "\t\t\tcase 58:",
  "\t\t\t\tgoto tr10",
  "\t\t\t}",
  "\t\t\tswitch {",
  "\t\t\tcase (m.data)[(m.p)] < 65:",
  "\t\t\t\tif 48 <= (m.data)[(m.p)] && (m.data)[(m.p)] <= 57 {",
  "\t\t\t\t\tgoto tr25",
  "\t\t\t\t}",
  "\t\t\tcase (m.data)[(m.p)] > 90:",
  "\t\t\t\tif 97 <= (m.data)[(m.p)] && (m.data)[(m.p)] <= 122 {",
  "\t\t\t\t\tgoto tr25",
  "\t\t\t\t}",
  "\t\t\tdefault:",
  "\t\t\t\tgoto tr25",
  "\t\t\t}",
  "\t\t\tgoto tr8",
  "\t\tcase 22:",
  "\t\t\tswitch (m.data)[(m.p)] {",
  "\t\t\tcase 45:",
  "\t\t\t\tgoto tr26",
  "\t\t\tcase 58:",
  "\t\t\t\tgoto tr10",
  "\t\t\t}",
  "\t\t\tswitch {",
  "\t\t\tcase (m.data)[(m.p)] < 65:",
  "\t\t\t\tif 48 <= (m.data)[(m.p)] && (m.data)[(m.p)] <= 57 {",
  "\t\t\t\t\tgoto tr26",
  "\t\t\t\t}",
  "\t\t\tcase (m.data)[(m.p)] > 90:",
  "\t\t\t\tif 97 <= (m.data)[(m.p)] && (m.data)[(m.p)] <= 122 {",
  "\t\t\t\t\tgoto tr26",
  "\t\t\t\t}",
  "\t\t\tdefault:",
  "\t\t\t\tgoto tr26",
  "\t\t\t}",
  "\t\t\tgoto tr8",
  "\t\tcase 23:",
  "\t\t\tswitch (m.data)[(m.p)] {",
  "\t\t\tcase 45:",
  "\t\t\t\tgoto tr27",
  "\t\t\tcase 58:",
  "\t\t\t\tgoto tr10",
  "\t\t\t}",
  "\t\t\tswitch {",
  "\t\t\tcase (m.data)[(m.p)] < 65:",
  "\t\t\t\tif 48 <= (m.data)[(m.p)] && (m.data)[(m.p)] <= 57 {",
  "\t\t\t\t\tgoto tr27",
  "\t\t\t\t}",
  "\t\t\tcase (m.data)[(m.p)] > 90:",
  "\t\t\t\tif 97 <= (m.data)[(m.p)] && (m.data)[(m.p)] <= 122 {",
  "\t\t\t\t\tgoto tr27",
  "\t\t\t\t}",
  "\t\t\tdefault:",
  "\t\t\t\tgoto tr27",
  "\t\t\t}",
  "\t\t\tgoto tr8",
  "\t\tcase 24:",
  "\t\t\tswitch (m.data)[(m.p)] {",
  "\t\t\tcase 45:",
  "\t\t\t\tgoto tr28",
  "\t\t\tcase 58:",
  "\t\t\t\tgoto tr10",
  "\t\t\t}",
  "\t\t\tswitch {",
  "\t\t\tcase (m.data)[(m.p)] < 65:",
  "\t\t\t\tif 48 <= (m.data)[(m.p)] && (m.data)[(m.p)] <= 57 {",
  "\t\t\t\t\tgoto tr28",
  "\t\t\t\t}",
  "\t\t\tcase (m.data)[(m.p)] > 90:",
  "\t\t\t\tif 97 <= (m.data)[(m.p)] && (m.data)[(m.p)] <= 122 {",
  "\t\t\t\t\tgoto tr28",
  "\t\t\t\t}",
  "\t\t\tdefault:",
  "\t\t\t\tgoto tr28",
  "\t\t\t}",
  "\t\t\tgoto tr8",
  "\t\tcase 25:",
  "\t\t\tswitch (m.data)[(m.p)] {",
  "\t\t\tcase 45:",
  "\t\t\t\tgoto tr29",
  "\t\t\tcase 58:",
  "\t\t\t\tgoto tr10",
  "\t\t\t}",
  "\t\t\tswitch {",
  "\t\t\tcase (m.data)[(m.p)] < 65:",
  "\t\t\t\tif 48 <= (m.data)[(m.p)] && (m.data)[(m.p)] <= 57 {",
  "\t\t\t\t\tgoto tr29",
  "\t\t\t\t}"]

/-- machine.go:601-800 -/
def machineGo3 : List String := [
  "\t\t\tcase (m.data)[(m.p)] > 90:",
  "\t\t\t\tif 97 <= (m.data)[(m.p)] && (m.data)[(m.p)] <= 122 {",
  "\t\t\t\t\tgoto tr29",
  "\t\t\t\t}",
  "\t\t\tdefault:",
  "\t\t\t\tgoto tr29",
  "\t\t\t}",
  "\t\t\tgoto tr8",
  "\t\tcase 26:",
  "\t\t\tswitch (m.data)[(m.p)] {",
  "\t\t\tcase 45:",
  "\t\t\t\tgoto tr30",
  "\t\t\tcase 58:",
  "\t\t\t\tgoto tr10",
  "\t\t\t}",
  "\t\t\tswitch {",
  "\t\t\tcase (m.data)[(m.p)] < 65:",
  "\t\t\t\tif 48 <= (m.data)[(m.p)] && (m.data)[(m.p)] <= 57 {",
  "\t\t\t\t\tgoto tr30",
  "\t\t\t\t}",
  "\t\t\tcase (m.data)[(m.p)] > 90:",
  "\t\t\t\tif 97 <= (m.data)[(m.p)] && (m.data)[(m.p)] <= 122 {",
  "\t\t\t\t\tgoto tr30",
  "\t\t\t\t}",
  "\t\t\tdefault:",
  "\t\t\t\tgoto tr30",
  "\t\t\t}",
  "\t\t\tgoto tr8",
  "\t\tcase 27:",
  "\t\t\tswitch (m.data)[(m.p)] {",
  "\t\t\tcase 45:",
  "\t\t\t\tgoto tr31",
  "\t\t\tcase 58:",
  "\t\t\t\tgoto tr10",
  "\t\t\t}",
  "\t\t\tswitch {",
  "\t\t\tcase (m.data)[(m.p)] < 65:",
  "\t\t\t\tif 48 <= (m.data)[(m.p)] && (m.data)[(m.p)] <= 57 {",
  "\t\t\t\t\tgoto tr31",
  "\t\t\t\t}",
  "\t\t\tcase (m.data)[(m.p)] > 90:",
  "\t\t\t\tif 97 <= (m.data)[(m.p)] && (m.data)[(m.p)] <= 122 {",
  "\t\t\t\t\tgoto tr31",
  "\t\t\t\t}",
  "\t\t\tdefault:",
  "\t\t\t\tgoto tr31",
  "\t\t\t}",
  "\t\t\tgoto tr8",
  "\t\tcase 28:",
  "\t\t\tswitch (m.data)[(m.p)] {",
  "\t\t\tcase 45:",
  "\t\t\t\tgoto tr32",
  "\t\t\tcase 58:",
  "\t\t\t\tgoto tr10",
  "\t\t\t}",
  "\t\t\tswitch {",
  "\t\t\tcase (m.data)[(m.p)] < 65:",
  "\t\t\t\tif 48 <= (m.data)[(m.p)] && (m.data)[(m.p)] <= 57 {",
  "\t\t\t\t\tgoto tr32",
  "\t\t\t\t}",
  "\t\t\tcase (m.data)[(m.p)] > 90:",
  "\t\t\t\tif 97 <= (m.data)[(m.p)] && (m.data)[(m.p)] <= 122 {",
  "\t\t\t\t\tgoto tr32",
  "\t\t\t\t}",
  "\t\t\tdefault:",
  "\t\t\t\tgoto tr32",
  "\t\t\t}",
  "\t\t\tgoto tr8",
  "\t\tcase 29:",
  "\t\t\tswitch (m.data)[(m.p)] {",
  "\t\t\tcase 45:",
  "\t\t\t\tgoto tr33",
  "\t\t\tcase 58:",
  "\t\t\t\tgoto tr10",
  "\t\t\t}",
  "\t\t\tswitch {",
  "\t\t\tcase (m.data)[(m.p)] < 65:",
  "\t\t\t\tif 48 <= (m.data)[(m.p)] && (m.data)[(m.p)] <= 57 {",
  "\t\t\t\t\tgoto tr33",
  "\t\t\t\t}",
  "\t\t\tcase (m.data)[(m.p)] > 90:",
  "\t\t\t\tif 97 <= (m.data)[(m.p)] && (m.data)[(m.p)] <= 122 {",
  "\t\t\t\t\tgoto tr33",
  "\t\t\t\t}",
  "\t\t\tdefault:",
  "\t\t\t\tgoto tr33",
  "\t\t\t}",
  "\t\t\tgoto tr8",
  "\t\tcase 30:",
  "\t\t\tswitch (m.data)[(m.p)] {",
  "\t\t\tcase 45:",
  "\t\t\t\tgoto tr34",
  "\t\t\tcase 58:",
  "\t\t\t\tgoto tr10",
  "\t\t\t}",
  "\t\t\tswitch {",
  "\t\t\tcase (m.data)[(m.p)] < 65:",
  "\t\t\t\tif 48 <= (m.data)[(m.p)] && (m.data)[(m.p)] <= 57 {",
  "\t\t\t\t\tgoto tr34",
  "\t\t\t\t}",
  "\t\t\tcase (m.data)[(m.p)] > 90:",
  "\t\t\t\tif 97 <= (m.data)[(m.p)] && (m.data)[(m.p)] <= 122 {",
  "\t\t\t\t\tgoto tr34",
  "\t\t\t\t}",
  "\t\t\tdefault:",
  "\t\t\t\tgoto tr34",
  "\t\t\t}",
  "\t\t\tgoto tr8",
  "\t\tcase 31:",
  "\t\t\tswitch (m.data)[(m.p)] {",
  "\t\t\tcase 45:",
  "\t\t\t\tgoto tr35",
  "\t\t\tcase 58:",
  "\t\t\t\tgoto tr10",
  "\t\t\t}",
  "\t\t\tswitch {",
  "\t\t\tcase (m.data)[(m.p)] < 65:",
  "\t\t\t\tif 48 <= (m.data)[(m.p)] && (m.data)[(m.p)] <= 57 {",
  "\t\t\t\t\tgoto tr35",
  "\t\t\t\t}",
  "\t\t\tcase (m.data)[(m.p)] > 90:",
  "\t\t\t\tif 97 <= (m.data)[(m.p)] && (m.data)[(m.p)] <= 122 {",
  "\t\t\t\t\tgoto tr35",
  "\t\t\t\t}",
  "\t\t\tdefault:",
  "\t\t\t\tgoto tr35",
  "\t\t\t}",
  "\t\t\tgoto tr8",
  "\t\tcase 32:",
  "\t\t\tswitch (m.data)[(m.p)] {",
  "\t\t\tcase 45:",
  "\t\t\t\tgoto tr36",
  "\t\t\tcase 58:",
  "\t\t\t\tgoto tr10",
  "\t\t\t}",
  "\t\t\tswitch {",
  "\t\t\tcase (m.data)[(m.p)] < 65:",
  "\t\t\t\tif 48 <= (m.data)[(m.p)] && (m.data)[(m.p)] <= 57 {",
  "\t\t\t\t\tgoto tr36",
  "\t\t\t\t}",
  "\t\t\tcase (m.data)[(m.p)] > 90:",
  "\t\t\t\tif 97 <= (m.data)[(m.p)] && (m.data)[(m.p)] <= 122 {",
  "\t\t\t\t\tgoto tr36",
  "\t\t\t\t}",
  "\t\t\tdefault:",
  "\t\t\t\tgoto tr36",
  "\t\t\t}",
  "\t\t\tgoto tr8",
  "\t\tcase 33:",
  "\t\t\tswitch (m.data)[(m.p)] {",
  "\t\t\tcase 45:",
  "\t\t\t\tgoto tr37",
  "\t\t\tcase 58:",
  "\t\t\t\tgoto tr10",
  "\t\t\t}",
  "\t\t\tswitch {",
  "\t\t\tcase (m.data)[(m.p)] < 65:",
  "\t\t\t\tif 48 <= (m.data)[(m.p)] && (m.data)[(m.p)] <= 57 {",
  "\t\t\t\t\tgoto tr37",
  "\t\t\t\t}",
  "\t\t\tcase (m.data)[(m.p)] > 90:",
  "\t\t\t\tif 97 <= (m.data)[(m.p)] && (m.data)[(m.p)] <= 122 {",
  "\t\t\t\t\tgoto tr37",
  "\t\t\t\t}",
  "\t\t\tdefault:",
  "\t\t\t\tgoto tr37",
  "\t\t\t}",
  "\t\t\tgoto tr8",
  "\t\tcase 34:",
  "\t\t\tswitch (m.data)[(m.p)] {",
  "\t\t\tcase 45:",
  "\t\t\t\tgoto tr38",
  "\t\t\tcase 58:",
  "\t\t\t\tgoto tr10",
  "\t\t\t}",
  "\t\t\tswitch {",
  "\t\t\tcase (m.data)[(m.p)] < 65:",
  "\t\t\t\tif 48 <= (m.data)[(m.p)] && (m.data)[(m.p)] <= 57 {",
  "\t\t\t\t\tgoto tr38",
  "\t\t\t\t}",
  "\t\t\tcase (m.data)[(m.p)] > 90:",
  "\t\t\t\tif 97 <= (m.data)[(m.p)] && (m.data)[(m.p)] <= 122 {",
  "\t\t\t\t\tgoto tr38",
  "\t\t\t\t}",
  "\t\t\tdefault:",
  "\t\t\t\tgoto tr38",
  "\t\t\t}",
  "\t\t\tgoto tr8",
  "\t\tcase 35:",
  "\t\t\tswitch (m.data)[(m.p)] {",
  "\t\t\tcase 45:",
  "\t\t\t\tgoto tr39",
  "\t\t\tcase 58:",
  "\t\t\t\tgoto tr10",
  "\t\t\t}",
  "\t\t\tswitch {",
  "\t\t\tcase (m.data)[(m.p)] < 65:",
  "\t\t\t\tif 48 <= (m.data)[(m.p)] && (m.data)[(m.p)] <= 57 {",
  "\t\t\t\t\tgoto tr39",
  "\t\t\t\t}"]

/-- machine.go:801-1000 -/
def machineGo4 : List String := [
  "\t\t\tcase (m.data)[(m.p)] > 90:",
  "\t\t\t\tif 97 <= (m.data)[(m.p)] && (m.data)[(m.p)] <= 122 {",
  "\t\t\t\t\tgoto tr39",
  "\t\t\t\t}",
  "\t\t\tdefault:",
  "\t\t\t\tgoto tr39",
  "\t\t\t}",
  "\t\t\tgoto tr8",
  "\t\tcase 36:",
  "\t\t\tswitch (m.data)[(m.p)] {",
  "\t\t\tcase 45:",
  "\t\t\t\tgoto tr40",
  "\t\t\tcase 58:",
  "\t\t\t\tgoto tr10",
  "\t\t\t}",
  "\t\t\tswitch {",
  "\t\t\tcase (m.data)[(m.p)] < 65:",
  "\t\t\t\tif 48 <= (m.data)[(m.p)] && (m.data)[(m.p)] <= 57 {",
  "\t\t\t\t\tgoto tr40",
  "\t\t\t\t}",
  "\t\t\tcase (m.data)[(m.p)] > 90:",
  "\t\t\t\tif 97 <= (m.data)[(m.p)] && (m.data)[(m.p)] <= 122 {",
  "\t\t\t\t\tgoto tr40",
  "\t\t\t\t}",
  "\t\t\tdefault:",
  "\t\t\t\tgoto tr40",
  "\t\t\t}",
  "\t\t\tgoto tr8",
  "\t\tcase 37:",
  "\t\t\tif (m.data)[(m.p)] == 58 {",
  "\t\t\t\tgoto tr10",
  "\t\t\t}",
  "\t\t\tgoto tr8",
  "\t\tcase 38:",
  "\t\t\tswitch (m.data)[(m.p)] {",
  "\t\t\tcase 33:",
  "\t\t\t\tgoto tr42",
  "\t\t\tcase 36:",
  "\t\t\t\tgoto tr42",
  "\t\t\tcase 37:",
  "\t\t\t\tgoto tr43",
  "\t\t\tcase 61:",
  "\t\t\t\tgoto tr42",
  "\t\t\tcase 95:",
  "\t\t\t\tgoto tr42",
  "\t\t\t}",
  "\t\t\tswitch {",
  "\t\t\tcase (m.data)[(m.p)] < 48:",
  "\t\t\t\tif 39 <= (m.data)[(m.p)] && (m.data)[(m.p)] <= 46 {",
  "\t\t\t\t\tgoto tr42",
  "\t\t\t\t}",
  "\t\t\tcase (m.data)[(m.p)] > 59:",
  "\t\t\t\tswitch {",
  "\t\t\t\tcase (m.data)[(m.p)] > 90:",
  "\t\t\t\t\tif 97 <= (m.data)[(m.p)] && (m.data)[(m.p)] <= 122 {",
  "\t\t\t\t\t\tgoto tr42",
  "\t\t\t\t\t}",
  "\t\t\t\tcase (m.data)[(m.p)] >= 64:",
  "\t\t\t\t\tgoto tr42",
  "\t\t\t\t}",
  "\t\t\tdefault:",
  "\t\t\t\tgoto tr42",
  "\t\t\t}",
  "\t\t\tgoto tr41",
  "\t\tcase 172:",
  "\t\t\tswitch (m.data)[(m.p)] {",
  "\t\t\tcase 33:",
  "\t\t\t\tgoto tr212",
  "\t\t\tcase 36:",
  "\t\t\t\tgoto tr212",
  "\t\t\tcase 37:",
  "\t\t\t\tgoto tr213",
  "\t\t\tcase 61:",
  "\t\t\t\tgoto tr212",
  "\t\t\tcase 95:",
  "\t\t\t\tgoto tr212",
  "\t\t\t}",
  "\t\t\tswitch {",
  "\t\t\tcase (m.data)[(m.p)] < 48:",
  "\t\t\t\tif 39 <= (m.data)[(m.p)] && (m.data)[(m.p)] <= 46 {",
  "\t\t\t\t\tgoto tr212",
  "\t\t\t\t}",
  "\t\t\tcase (m.data)[(m.p)] > 59:",
  "\t\t\t\tswitch {",
  "\t\t\t\tcase (m.data)[(m.p)] > 90:",
  "\t\t\t\t\tif 97 <= (m.data)[(m.p)] && (m.data)[(m.p)] <= 122 {",
  "\t\t\t\t\t\tgoto tr212",
  "\t\t\t\t\t}",
  "\t\t\t\tcase (m.data)[(m.p)] >= 64:",
  "\t\t\t\t\tgoto tr212",
  "\t\t\t\t}",
  "\t\t\tdefault:",
  "\t\t\t\tgoto tr212",
  "\t\t\t}",
  "\t\t\tgoto tr41",
  "\t\tcase 39:",
  "\t\t\tswitch {",
  "\t\t\tcase (m.data)[(m.p)] < 65:",
  "\t\t\t\tif 48 <= (m.data)[(m.p)] && (m.data)[(m.p)] <= 57 {",
  "\t\t\t\t\tgoto tr45",
  "\t\t\t\t}",
  "\t\t\tcase (m.data)[(m.p)] > 90:",
  "\t\t\t\tif 97 <= (m.data)[(m.p)] && (m.data)[(m.p)] <= 122 {",
  "\t\t\t\t\tgoto tr45",
  "\t\t\t\t}",
  "\t\t\tdefault:",
  "\t\t\t\tgoto tr46",
  "\t\t\t}",
  "\t\t\tgoto tr44",
  "\t\tcase 40:",
  "\t\t\tswitch {",
  "\t\t\tcase (m.data)[(m.p)] < 65:",
  "\t\t\t\tif 48 <= (m.data)[(m.p)] && (m.data)[(m.p)] <= 57 {",
  "\t\t\t\t\tgoto tr47",
  "\t\t\t\t}",
  "\t\t\tcase (m.data)[(m.p)] > 90:",
  "\t\t\t\tif 97 <= (m.data)[(m.p)] && (m.data)[(m.p)] <= 122 {",
  "\t\t\t\t\tgoto tr47",
  "\t\t\t\t}",
  "\t\t\tdefault:",
  "\t\t\t\tgoto tr48",
  "\t\t\t}",
  "\t\t\tgoto tr44",
  "\t\tcase 173:",
  "\t\t\tswitch (m.data)[(m.p)] {",
  "\t\t\tcase 33:",
  "\t\t\t\tgoto tr212",
  "\t\t\tcase 36:",
  "\t\t\t\tgoto tr212",
  "\t\t\tcase 37:",
  "\t\t\t\tgoto tr213",
  "\t\t\tcase 61:",
  "\t\t\t\tgoto tr212",
  "\t\t\tcase 95:",
  "\t\t\t\tgoto tr212",
  "\t\t\t}",
  "\t\t\tswitch {",
  "\t\t\tcase (m.data)[(m.p)] < 48:",
  "\t\t\t\tif 39 <= (m.data)[(m.p)] && (m.data)[(m.p)] <= 46 {",
  "\t\t\t\t\tgoto tr212",
  "\t\t\t\t}",
  "\t\t\tcase (m.data)[(m.p)] > 59:",
  "\t\t\t\tswitch {",
  "\t\t\t\tcase (m.data)[(m.p)] > 90:",
  "\t\t\t\t\tif 97 <= (m.data)[(m.p)] && (m.data)[(m.p)] <= 122 {",
  "\t\t\t\t\t\tgoto tr212",
  "\t\t\t\t\t}",
  "\t\t\t\tcase (m.data)[(m.p)] >= 64:",
  "\t\t\t\t\tgoto tr212",
  "\t\t\t\t}",
  "\t\t\tdefault:",
  "\t\t\t\tgoto tr212",
  "\t\t\t}",
  "\t\t\tgoto tr44",
  "\t\tcase 41:",
  "\t\t\tswitch (m.data)[(m.p)] {",
  "\t\t\tcase 45:",
  "\t\t\t\tgoto tr9",
  "\t\t\tcase 58:",
  "\t\t\t\tgoto tr10",
  "\t\t\tcase 82:",
  "\t\t\t\tgoto tr49",
  "\t\t\tcase 114:",
  "\t\t\t\tgoto tr49",
  "\t\t\t}",
  "\t\t\tswitch {",
  "\t\t\tcase (m.data)[(m.p)] < 65:",
  "\t\t\t\tif 48 <= (m.data)[(m.p)] && (m.data)[(m.p)] <= 57 {",
  "\t\t\t\t\tgoto tr9",
  "\t\t\t\t}",
  "\t\t\tcase (m.data)[(m.p)] > 90:",
  "\t\t\t\tif 97 <= (m.data)[(m.p)] && (m.data)[(m.p)] <= 122 {",
  "\t\t\t\t\tgoto tr9",
  "\t\t\t\t}",
  "\t\t\tdefault:",
  "\t\t\t\tgoto tr9",
  "\t\t\t}",
  "\t\t\tgoto tr5",
  "\t\tcase 42:",
  "\t\t\tswitch (m.data)[(m.p)] {",
  "\t\t\tcase 45:",
  "\t\t\t\tgoto tr11",
  "\t\t\tcase 58:",
  "\t\t\t\tgoto tr10",
  "\t\t\tcase 78:",
  "\t\t\t\tgoto tr50",
  "\t\t\tcase 110:",
  "\t\t\t\tgoto tr50",
  "\t\t\t}",
  "\t\t\tswitch {",
  "\t\t\tcase (m.data)[(m.p)] < 65:",
  "\t\t\t\tif 48 <= (m.data)[(m.p)] && (m.data)[(m.p)] <= 57 {",
  "\t\t\t\t\tgoto tr11",
  "\t\t\t\t}",
  "\t\t\tcase (m.data)[(m.p)] > 90:",
  "\t\t\t\tif 97 <= (m.data)[(m.p)] && (m.data)[(m.p)] <= 122 {",
  "\t\t\t\t\tgoto tr11",
  "\t\t\t\t}",
  "\t\t\tdefault:",
  "\t\t\t\tgoto tr11"]

/-- machine.go:1001-1200 -/
def machineGo5 : List String := [
  "\t\t\t}",
  "\t\t\tgoto tr5",
  "\t\tcase 43:",
  "\t\t\tif (m.data)[(m.p)] == 45 {",
  "\t\t\t\tgoto tr12",
  "\t\t\t}",
  "\t\t\tswitch {",
  "\t\t\tcase (m.data)[(m.p)] < 65:",
  "\t\t\t\tif 48 <= (m.data)[(m.p)] && (m.data)[(m.p)] <= 57 {",
  "\t\t\t\t\tgoto tr12",
  "\t\t\t\t}",
  "\t\t\tcase (m.data)[(m.p)] > 90:",
  "\t\t\t\tif 97 <= (m.data)[(m.p)] && (m.data)[(m.p)] <= 122 {",
  "\t\t\t\t\tgoto tr12",
  "\t\t\t\t}",
  "\t\t\tdefault:",
  "\t\t\t\tgoto tr12",
  "\t\t\t}",
  "\t\t\tgoto tr51",
  "\t\tcase 44:",
  "\t\t\tswitch (m.data)[(m.p)] {",
  "\t\t\tcase 85:",
  "\t\t\t\tgoto tr52",
  "\t\t\tcase 117:",
  "\t\t\t\tgoto tr52",
  "\t\t\t}",
  "\t\t\tgoto tr0",
  "\t\tcase 45:",
  "\t\t\tswitch (m.data)[(m.p)] {",
  "\t\t\tcase 82:",
  "\t\t\t\tgoto tr53",
  "\t\t\tcase 114:",
  "\t\t\t\tgoto tr53",
  "\t\t\t}",
  "\t\t\tgoto tr0",
  "\t\tcase 46:",
  "\t\t\tswitch (m.data)[(m.p)] {",
  "\t\t\tcase 78:",
  "\t\t\t\tgoto tr54",
  "\t\t\tcase 110:",
  "\t\t\t\tgoto tr54",
  "\t\t\t}",
  "\t\t\tgoto tr0",
  "\t\tcase 47:",
  "\t\t\tif (m.data)[(m.p)] == 58 {",
  "\t\t\t\tgoto tr55",
  "\t\t\t}",
  "\t\t\tgoto tr0",
  "\t\tcase 48:",
  "\t\t\tif (m.data)[(m.p)] == 105 {",
  "\t\t\t\tgoto tr57",
  "\t\t\t}",
  "\t\t\tgoto tr56",
  "\t\tcase 49:",
  "\t\t\tif (m.data)[(m.p)] == 101 {",
  "\t\t\t\tgoto tr58",
  "\t\t\t}",
  "\t\t\tgoto tr56",
  "\t\tcase 50:",
  "\t\t\tif (m.data)[(m.p)] == 116 {",
  "\t\t\t\tgoto tr59",
  "\t\t\t}",
  "\t\t\tgoto tr56",
  "\t\tcase 51:",
  "\t\t\tif (m.data)[(m.p)] == 102 {",
  "\t\t\t\tgoto tr60",
  "\t\t\t}",
  "\t\t\tgoto tr56",
  "\t\tcase 52:",
  "\t\t\tif (m.data)[(m.p)] == 58 {",
  "\t\t\t\tgoto tr61",
  "\t\t\t}",
  "\t\t\tgoto tr56",
  "\t\tcase 53:",
  "\t\t\tif (m.data)[(m.p)] == 112 {",
  "\t\t\t\tgoto tr62",
  "\t\t\t}",
  "\t\t\tgoto tr56",
  "\t\tcase 54:",
  "\t\t\tif (m.data)[(m.p)] == 97 {",
  "\t\t\t\tgoto tr63",
  "\t\t\t}",
  "\t\t\tgoto tr56",
  "\t\tcase 55:",
  "\t\t\tif (m.data)[(m.p)] == 114 {",
  "\t\t\t\tgoto tr64",
  "\t\t\t}",
  "\t\t\tgoto tr56",
  "\t\tcase 56:",
  "\t\t\tif (m.data)[(m.p)] == 97 {",
  "\t\t\t\tgoto tr65",
  "\t\t\t}",
  "\t\t\tgoto tr56",
  "\t\tcase 57:",
  "\t\t\tif (m.data)[(m.p)] == 109 {",
  "\t\t\t\tgoto tr66",
  "\t\t\t}",
  "\t\t\tgoto tr56",
  "\t\tcase 58:",
  "\t\t\tif (m.data)[(m.p)] == 115 {",
  "\t\t\t\tgoto tr67",
  "\t\t\t}",
  "\t\t\tgoto tr56",
  "\t\tcase 59:",
  "\t\t\tif (m.data)[(m.p)] == 58 {",
  "\t\t\t\tgoto tr68",
  "\t\t\t}",
  "\t\t\tgoto tr56",
  "\t\tcase 60:",
  "\t\t\tif (m.data)[(m.p)] == 115 {",
  "\t\t\t\tgoto tr69",
  "\t\t\t}",
  "\t\t\tgoto tr56",
  "\t\tcase 61:",
  "\t\t\tif (m.data)[(m.p)] == 99 {",
  "\t\t\t\tgoto tr70",
  "\t\t\t}",
  "\t\t\tgoto tr56",
  "\t\tcase 62:",
  "\t\t\tif (m.data)[(m.p)] == 105 {",
  "\t\t\t\tgoto tr71",
  "\t\t\t}",
  "\t\t\tgoto tr56",
  "\t\tcase 63:",
  "\t\t\tif (m.data)[(m.p)] == 109 {",
  "\t\t\t\tgoto tr72",
  "\t\t\t}",
  "\t\t\tgoto tr56",
  "\t\tcase 64:",
  "\t\t\tif (m.data)[(m.p)] == 58 {",
  "\t\t\t\tgoto tr73",
  "\t\t\t}",
  "\t\t\tgoto tr56",
  "\t\tcase 65:",
  "\t\t\tswitch (m.data)[(m.p)] {",
  "\t\t\tcase 97:",
  "\t\t\t\tgoto tr75",
  "\t\t\tcase 112:",
  "\t\t\t\tgoto tr76",
  "\t\t\tcase 115:",
  "\t\t\t\tgoto tr77",
  "\t\t\t}",
  "\t\t\tgoto tr74",
  "\t\tcase 66:",
  "\t\t\tif (m.data)[(m.p)] == 112 {",
  "\t\t\t\tgoto tr78",
  "\t\t\t}",
  "\t\t\tgoto tr74",
  "\t\tcase 67:",
  "\t\t\tif (m.data)[(m.p)] == 105 {",
  "\t\t\t\tgoto tr79",
  "\t\t\t}",
  "\t\t\tgoto tr74",
  "\t\tcase 68:",
  "\t\t\tif (m.data)[(m.p)] == 58 {",
  "\t\t\t\tgoto tr80",
  "\t\t\t}",
  "\t\t\tgoto tr74",
  "\t\tcase 69:",
  "\t\t\tswitch {",
  "\t\t\tcase (m.data)[(m.p)] < 65:",
  "\t\t\t\tif 48 <= (m.data)[(m.p)] && (m.data)[(m.p)] <= 57 {",
  "\t\t\t\t\tgoto tr82",
  "\t\t\t\t}",
  "\t\t\tcase (m.data)[(m.p)] > 90:",
  "\t\t\t\tif 97 <= (m.data)[(m.p)] && (m.data)[(m.p)] <= 122 {",
  "\t\t\t\t\tgoto tr82",
  "\t\t\t\t}",
  "\t\t\tdefault:",
  "\t\t\t\tgoto tr82",
  "\t\t\t}",
  "\t\t\tgoto tr81",
  "\t\tcase 174:",
  "\t\t\tif (m.data)[(m.p)] == 58 {",
  "\t\t\t\tgoto tr215",
  "\t\t\t}",
  "\t\t\tswitch {",
  "\t\t\tcase (m.data)[(m.p)] < 65:",
  "\t\t\t\tif 48 <= (m.data)[(m.p)] && (m.data)[(m.p)] <= 57 {",
  "\t\t\t\t\tgoto tr214",
  "\t\t\t\t}",
  "\t\t\tcase (m.data)[(m.p)] > 90:",
  "\t\t\t\tif 97 <= (m.data)[(m.p)] && (m.data)[(m.p)] <= 122 {",
  "\t\t\t\t\tgoto tr214",
  "\t\t\t\t}",
  "\t\t\tdefault:",
  "\t\t\t\tgoto tr214",
  "\t\t\t}",
  "\t\t\tgoto tr81",
  "\t\tcase 70:",
  "\t\t\tswitch (m.data)[(m.p)] {",
  "\t\t\tcase 33:",
  "\t\t\t\tgoto tr84",
  "\t\t\tcase 36:",
  "\t\t\t\tgoto tr84",
  "\t\t\tcase 37:",
  "\t\t\t\tgoto tr85",
  "\t\t\tcase 61:",
  "\t\t\t\tgoto tr84",
  "\t\t\tcase 95:"]

/-- machine.go:1201-1400 -/
def machineGo6 : List String := [
  "\t\t\t\tgoto tr84",
  "\t\t\t}",
  "\t\t\tswitch {",
  "\t\t\tcase (m.data)[(m.p)] < 48:",
  "\t\t\t\tif 39 <= (m.data)[(m.p)] && (m.data)[(m.p)] <= 46 {",
  "\t\t\t\t\tgoto tr84",
  "\t\t\t\t}",
  "\t\t\tcase (m.data)[(m.p)] > 59:",
  "\t\t\t\tswitch {",
  "\t\t\t\tcase (m.data)[(m.p)] > 90:",
  "\t\t\t\t\tif 97 <= (m.data)[(m.p)] && (m.data)[(m.p)] <= 122 {",
  "\t\t\t\t\t\tgoto tr84",
  "\t\t\t\t\t}",
  "\t\t\t\tcase (m.data)[(m.p)] >= 64:",
  "\t\t\t\t\tgoto tr84",
  "\t\t\t\t}",
  "\t\t\tdefault:",
  "\t\t\t\tgoto tr84",
  "\t\t\t}",
  "\t\t\tgoto tr83",
  "\t\tcase 175:",
  "\t\t\tswitch (m.data)[(m.p)] {",
  "\t\t\tcase 33:",
  "\t\t\t\tgoto tr216",
  "\t\t\tcase 36:",
  "\t\t\t\tgoto tr216",
  "\t\t\tcase 37:",
  "\t\t\t\tgoto tr217",
  "\t\t\tcase 61:",
  "\t\t\t\tgoto tr216",
  "\t\t\tcase 95:",
  "\t\t\t\tgoto tr216",
  "\t\t\t}",
  "\t\t\tswitch {",
  "\t\t\tcase (m.data)[(m.p)] < 48:",
  "\t\t\t\tif 39 <= (m.data)[(m.p)] && (m.data)[(m.p)] <= 46 {",
  "\t\t\t\t\tgoto tr216",
  "\t\t\t\t}",
  "\t\t\tcase (m.data)[(m.p)] > 59:",
  "\t\t\t\tswitch {",
  "\t\t\t\tcase (m.data)[(m.p)] > 90:",
  "\t\t\t\t\tif 97 <= (m.data)[(m.p)] && (m.data)[(m.p)] <= 122 {",
  "\t\t\t\t\t\tgoto tr216",
  "\t\t\t\t\t}",
  "\t\t\t\tcase (m.data)[(m.p)] >= 64:",
  "\t\t\t\t\tgoto tr216",
  "\t\t\t\t}",
  "\t\t\tdefault:",
  "\t\t\t\tgoto tr216",
  "\t\t\t}",
  "\t\t\tgoto tr83",
  "\t\tcase 71:",
  "\t\t\tswitch {",
  "\t\t\tcase (m.data)[(m.p)] < 65:",
  "\t\t\t\tif 48 <= (m.data)[(m.p)] && (m.data)[(m.p)] <= 57 {",
  "\t\t\t\t\tgoto tr87",
  "\t\t\t\t}",
  "\t\t\tcase (m.data)[(m.p)] > 90:",
  "\t\t\t\tif 97 <= (m.data)[(m.p)] && (m.data)[(m.p)] <= 122 {",
  "\t\t\t\t\tgoto tr87",
  "\t\t\t\t}",
  "\t\t\tdefault:",
  "\t\t\t\tgoto tr88",
  "\t\t\t}",
  "\t\t\tgoto tr86",
  "\t\tcase 72:",
  "\t\t\tswitch {",
  "\t\t\tcase (m.data)[(m.p)] < 65:",
  "\t\t\t\tif 48 <= (m.data)[(m.p)] && (m.data)[(m.p)] <= 57 {",
  "\t\t\t\t\tgoto tr89",
  "\t\t\t\t}",
  "\t\t\tcase (m.data)[(m.p)] > 90:",
  "\t\t\t\tif 97 <= (m.data)[(m.p)] && (m.data)[(m.p)] <= 122 {",
  "\t\t\t\t\tgoto tr89",
  "\t\t\t\t}",
  "\t\t\tdefault:",
  "\t\t\t\tgoto tr90",
  "\t\t\t}",
  "\t\t\tgoto tr86",
  "\t\tcase 176:",
  "\t\t\tswitch (m.data)[(m.p)] {",
  "\t\t\tcase 33:",
  "\t\t\t\tgoto tr216",
  "\t\t\tcase 36:",
  "\t\t\t\tgoto tr216",
  "\t\t\tcase 37:",
  "\t\t\t\tgoto tr217",
  "\t\t\tcase 61:",
  "\t\t\t\tgoto tr216",
  "\t\t\tcase 95:",
  "\t\t\t\tgoto tr216",
  "\t\t\t}",
  "\t\t\tswitch {",
  "\t\t\tcase (m.data)[(m.p)] < 48:",
  "\t\t\t\tif 39 <= (m.data)[(m.p)] && (m.data)[(m.p)] <= 46 {",
  "\t\t\t\t\tgoto tr216",
  "\t\t\t\t}",
  "\t\t\tcase (m.data)[(m.p)] > 59:",
  "\t\t\t\tswitch {",
  "\t\t\t\tcase (m.data)[(m.p)] > 90:",
  "\t\t\t\t\tif 97 <= (m.data)[(m.p)] && (m.data)[(m.p)] <= 122 {",
  "\t\t\t\t\t\tgoto tr216",
  "\t\t\t\t\t}",
  "\t\t\t\tcase (m.data)[(m.p)] >= 64:",
  "\t\t\t\t\tgoto tr216",
  "\t\t\t\t}",
  "\t\t\tdefault:",
  "\t\t\t\tgoto tr216",
  "\t\t\t}",
  "\t\t\tgoto tr86",
  "\t\tcase 73:",
  "\t\t\tif (m.data)[(m.p)] == 97 {",
  "\t\t\t\tgoto tr91",
  "\t\t\t}",
  "\t\t\tgoto tr74",
  "\t\tcase 74:",
  "\t\t\tif (m.data)[(m.p)] == 114 {",
  "\t\t\t\tgoto tr92",
  "\t\t\t}",
  "\t\t\tgoto tr74",
  "\t\tcase 75:",
  "\t\t\tif (m.data)[(m.p)] == 97 {",
  "\t\t\t\tgoto tr93",
  "\t\t\t}",
  "\t\t\tgoto tr74",
  "\t\tcase 76:",
  "\t\t\tif (m.data)[(m.p)] == 109 {",
  "\t\t\t\tgoto tr79",
  "\t\t\t}",
  "\t\t\tgoto tr74",
  "\t\tcase 77:",
  "\t\t\tif (m.data)[(m.p)] == 99 {",
  "\t\t\t\tgoto tr94",
  "\t\t\t}",
  "\t\t\tgoto tr74",
  "\t\tcase 78:",
  "\t\t\tif (m.data)[(m.p)] == 104 {",
  "\t\t\t\tgoto tr95",
  "\t\t\t}",
  "\t\t\tgoto tr74",
  "\t\tcase 79:",
  "\t\t\tif (m.data)[(m.p)] == 101 {",
  "\t\t\t\tgoto tr96",
  "\t\t\t}",
  "\t\t\tgoto tr74",
  "\t\tcase 80:",
  "\t\t\tif (m.data)[(m.p)] == 109 {",
  "\t\t\t\tgoto tr97",
  "\t\t\t}",
  "\t\t\tgoto tr74",
  "\t\tcase 81:",
  "\t\t\tif (m.data)[(m.p)] == 97 {",
  "\t\t\t\tgoto tr98",
  "\t\t\t}",
  "\t\t\tgoto tr74",
  "\t\tcase 82:",
  "\t\t\tif (m.data)[(m.p)] == 115 {",
  "\t\t\t\tgoto tr79",
  "\t\t\t}",
  "\t\t\tgoto tr74",
  "\t\tcase 83:",
  "\t\t\tswitch (m.data)[(m.p)] {",
  "\t\t\tcase 85:",
  "\t\t\t\tgoto tr99",
  "\t\t\tcase 117:",
  "\t\t\t\tgoto tr99",
  "\t\t\t}",
  "\t\t\tgoto tr0",
  "\t\tcase 84:",
  "\t\t\tswitch (m.data)[(m.p)] {",
  "\t\t\tcase 82:",
  "\t\t\t\tgoto tr100",
  "\t\t\tcase 114:",
  "\t\t\t\tgoto tr100",
  "\t\t\t}",
  "\t\t\tgoto tr0",
  "\t\tcase 85:",
  "\t\t\tswitch (m.data)[(m.p)] {",
  "\t\t\tcase 78:",
  "\t\t\t\tgoto tr101",
  "\t\t\tcase 110:",
  "\t\t\t\tgoto tr101",
  "\t\t\t}",
  "\t\t\tgoto tr0",
  "\t\tcase 86:",
  "\t\t\tif (m.data)[(m.p)] == 58 {",
  "\t\t\t\tgoto tr102",
  "\t\t\t}",
  "\t\t\tgoto tr0",
  "\t\tcase 87:",
  "\t\t\tswitch (m.data)[(m.p)] {",
  "\t\t\tcase 85:",
  "\t\t\t\tgoto tr105",
  "\t\t\tcase 117:",
  "\t\t\t\tgoto tr105",
  "\t\t\t}",
  "\t\t\tswitch {",
  "\t\t\tcase (m.data)[(m.p)] < 65:",
  "\t\t\t\tif 48 <= (m.data)[(m.p)] && (m.data)[(m.p)] <= 57 {",
  "\t\t\t\t\tgoto tr104"]

/-- machine.go:1401-1600 -/
def machineGo7 : List String := [
  "\t\t\t\t}",
  "\t\t\tcase (m.data)[(m.p)] > 90:",
  "\t\t\t\tif 97 <= (m.data)[(m.p)] && (m.data)[(m.p)] <= 122 {",
  "\t\t\t\t\tgoto tr104",
  "\t\t\t\t}",
  "\t\t\tdefault:",
  "\t\t\t\tgoto tr104",
  "\t\t\t}",
  "\t\t\tgoto tr103",
  "\t\tcase 88:",
  "\t\t\tif (m.data)[(m.p)] == 45 {",
  "\t\t\t\tgoto tr107",
  "\t\t\t}",
  "\t\t\tswitch {",
  "\t\t\tcase (m.data)[(m.p)] < 65:",
  "\t\t\t\tif 48 <= (m.data)[(m.p)] && (m.data)[(m.p)] <= 57 {",
  "\t\t\t\t\tgoto tr108",
  "\t\t\t\t}",
  "\t\t\tcase (m.data)[(m.p)] > 90:",
  "\t\t\t\tif 97 <= (m.data)[(m.p)] && (m.data)[(m.p)] <= 122 {",
  "\t\t\t\t\tgoto tr108",
  "\t\t\t\t}",
  "\t\t\tdefault:",
  "\t\t\t\tgoto tr108",
  "\t\t\t}",
  "\t\t\tgoto tr106",
  "\t\tcase 89:",
  "\t\t\tif (m.data)[(m.p)] == 45 {",
  "\t\t\t\tgoto tr109",
  "\t\t\t}",
  "\t\t\tswitch {",
  "\t\t\tcase (m.data)[(m.p)] < 65:",
  "\t\t\t\tif 48 <= (m.data)[(m.p)] && (m.data)[(m.p)] <= 57 {",
  "\t\t\t\t\tgoto tr110",
  "\t\t\t\t}",
  "\t\t\tcase (m.data)[(m.p)] > 90:",
  "\t\t\t\tif 97 <= (m.data)[(m.p)] && (m.data)[(m.p)] <= 122 {",
  "\t\t\t\t\tgoto tr110",
  "\t\t\t\t}",
  "\t\t\tdefault:",
  "\t\t\t\tgoto tr110",
  "\t\t\t}",
  "\t\t\tgoto tr106",
  "\t\tcase 90:",
  "\t\t\tif (m.data)[(m.p)] == 45 {",
  "\t\t\t\tgoto tr111",
  "\t\t\t}",
  "\t\t\tswitch {",
  "\t\t\tcase (m.data)[(m.p)] < 65:",
  "\t\t\t\tif 48 <= (m.data)[(m.p)] && (m.data)[(m.p)] <= 57 {",
  "\t\t\t\t\tgoto tr112",
  "\t\t\t\t}",
  "\t\t\tcase (m.data)[(m.p)] > 90:",
  "\t\t\t\tif 97 <= (m.data)[(m.p)] && (m.data)[(m.p)] <= 122 {",
  "\t\t\t\t\tgoto tr112",
  "\t\t\t\t}",
  "\t\t\tdefault:",
  "\t\t\t\tgoto tr112",
  "\t\t\t}",
  "\t\t\tgoto tr106",
  "\t\tcase 91:",
  "\t\t\tif (m.data)[(m.p)] == 45 {",
  "\t\t\t\tgoto tr113",
  "\t\t\t}",
  "\t\t\tswitch {",
  "\t\t\tcase (m.data)[(m.p)] < 65:",
  "\t\t\t\tif 48 <= (m.data)[(m.p)] && (m.data)[(m.p)] <= 57 {",
  "\t\t\t\t\tgoto tr114",
  "\t\t\t\t}",
  "\t\t\tcase (m.data)[(m.p)] > 90:",
  "\t\t\t\tif 97 <= (m.data)[(m.p)] && (m.data)[(m.p)] <= 122 {",
  "\t\t\t\t\tgoto tr114",
  "\t\t\t\t}",
  "\t\t\tdefault:",
  "\t\t\t\tgoto tr114",
  "\t\t\t}",
  "\t\t\tgoto tr106",
  "\t\tcase 92:",
  "\t\t\tif (m.data)[(m.p)] == 45 {",
  "\t\t\t\tgoto tr115",
  "\t\t\t}",
  "\t\t\tswitch {",
  "\t\t\tcase (m.data)[(m.p)] < 65:",
  "\t\t\t\tif 48 <= (m.data)[(m.p)] && (m.data)[(m.p)] <= 57 {",
  "\t\t\t\t\tgoto tr116",
  "\t\t\t\t}",
  "\t\t\tcase (m.data)[(m.p)] > 90:",
  "\t\t\t\tif 97 <= (m.data)[(m.p)] && (m.data)[(m.p)] <= 122 {",
  "\t\t\t\t\tgoto tr116",
  "\t\t\t\t}",
  "\t\t\tdefault:",
  "\t\t\t\tgoto tr116",
  "\t\t\t}",
  "\t\t\tgoto tr106",
  "\t\tcase 93:",
  "\t\t\tif (m.data)[(m.p)] == 45 {",
  "\t\t\t\tgoto tr117",
  "\t\t\t}",
  "\t\t\tswitch {",
  "\t\t\tcase (m.data)[(m.p)] < 65:",
  "\t\t\t\tif 48 <= (m.data)[(m.p)] && (m.data)[(m.p)] <= 57 {",
  "\t\t\t\t\tgoto tr118",
  "\t\t\t\t}",
  "\t\t\tcase (m.data)[(m.p)] > 90:",
  "\t\t\t\tif 97 <= (m.data)[(m.p)] && (m.data)[(m.p)] <= 122 {",
  "\t\t\t\t\tgoto tr118",
  "\t\t\t\t}",
  "\t\t\tdefault:",
  "\t\t\t\tgoto tr118",
  "\t\t\t}",
  "\t\t\tgoto tr106",
  "\t\tcase 94:",
  "\t\t\tif (m.data)[(m.p)] == 45 {",
  "\t\t\t\tgoto tr119",
  "\t\t\t}",
  "\t\t\tswitch {",
  "\t\t\tcase (m.data)[(m.p)] < 65:",
  "\t\t\t\tif 48 <= (m.data)[(m.p)] && (m.data)[(m.p)] <= 57 {",
  "\t\t\t\t\tgoto tr120",
  "\t\t\t\t}",
  "\t\t\tcase (m.data)[(m.p)] > 90:",
  "\t\t\t\tif 97 <= (m.data)[(m.p)] && (m.data)[(m.p)] <= 122 {",
  "\t\t\t\t\tgoto tr120",
  "\t\t\t\t}",
  "\t\t\tdefault:",
  "\t\t\t\tgoto tr120",
  "\t\t\t}",
  "\t\t\tgoto tr106",
  "\t\tcase 95:",
  "\t\t\tif (m.data)[(m.p)] == 45 {",
  "\t\t\t\tgoto tr121",
  "\t\t\t}",
  "\t\t\tswitch {",
  "\t\t\tcase (m.data)[(m.p)] < 65:",
  "\t\t\t\tif 48 <= (m.data)[(m.p)] && (m.data)[(m.p)] <= 57 {",
  "\t\t\t\t\tgoto tr122",
  "\t\t\t\t}",
  "\t\t\tcase (m.data)[(m.p)] > 90:",
  "\t\t\t\tif 97 <= (m.data)[(m.p)] && (m.data)[(m.p)] <= 122 {",
  "\t\t\t\t\tgoto tr122",
  "\t\t\t\t}",
  "\t\t\tdefault:",
  "\t\t\t\tgoto tr122",
  "\t\t\t}",
  "\t\t\tgoto tr106",
  "\t\tcase 96:",
  "\t\t\tif (m.data)[(m.p)] == 45 {",
  "\t\t\t\tgoto tr123",
  "\t\t\t}",
  "\t\t\tswitch {",
  "\t\t\tcase (m.data)[(m.p)] < 65:",
  "\t\t\t\tif 48 <= (m.data)[(m.p)] && (m.data)[(m.p)] <= 57 {",
  "\t\t\t\t\tgoto tr124",
  "\t\t\t\t}",
  "\t\t\tcase (m.data)[(m.p)] > 90:",
  "\t\t\t\tif 97 <= (m.data)[(m.p)] && (m.data)[(m.p)] <= 122 {",
  "\t\t\t\t\tgoto tr124",
  "\t\t\t\t}",
  "\t\t\tdefault:",
  "\t\t\t\tgoto tr124",
  "\t\t\t}",
  "\t\t\tgoto tr106",
  "\t\tcase 97:",
  "\t\t\tif (m.data)[(m.p)] == 45 {",
  "\t\t\t\tgoto tr125",
  "\t\t\t}",
  "\t\t\tswitch {",
  "\t\t\tcase (m.data)[(m.p)] < 65:",
  "\t\t\t\tif 48 <= (m.data)[(m.p)] && (m.data)[(m.p)] <= 57 {",
  "\t\t\t\t\tgoto tr126",
  "\t\t\t\t}",
  "\t\t\tcase (m.data)[(m.p)] > 90:",
  "\t\t\t\tif 97 <= (m.data)[(m.p)] && (m.data)[(m.p)] <= 122 {",
  "\t\t\t\t\tgoto tr126",
  "\t\t\t\t}",
  "\t\t\tdefault:",
  "\t\t\t\tgoto tr126",
  "\t\t\t}",
  "\t\t\tgoto tr106",
  "\t\tcase 98:",
  "\t\t\tif (m.data)[(m.p)] == 45 {",
  "\t\t\t\tgoto tr127",
  "\t\t\t}",
  "\t\t\tswitch {",
  "\t\t\tcase (m.data)[(m.p)] < 65:",
  "\t\t\t\tif 48 <= (m.data)[(m.p)] && (m.data)[(m.p)] <= 57 {",
  "\t\t\t\t\tgoto tr128",
  "\t\t\t\t}",
  "\t\t\tcase (m.data)[(m.p)] > 90:",
  "\t\t\t\tif 97 <= (m.data)[(m.p)] && (m.data)[(m.p)] <= 122 {",
  "\t\t\t\t\tgoto tr128",
  "\t\t\t\t}",
  "\t\t\tdefault:",
  "\t\t\t\tgoto tr128",
  "\t\t\t}",
  "\t\t\tgoto tr106",
  "\t\tcase 99:",
  "\t\t\tif (m.data)[(m.p)] == 45 {",
  "\t\t\t\tgoto tr129",
  "\t\t\t}"]

/-- machine.go:1601-1800 -/
def machineGo8 : List String := [
  "\t\t\tswitch {",
  "\t\t\tcase (m.data)[(m.p)] < 65:",
  "\t\t\t\tif 48 <= (m.data)[(m.p)] && (m.data)[(m.p)] <= 57 {",
  "\t\t\t\t\tgoto tr130",
  "\t\t\t\t}",
  "\t\t\tcase (m.data)[(m.p)] > 90:",
  "\t\t\t\tif 97 <= (m.data)[(m.p)] && (m.data)[(m.p)] <= 122 {",
  "\t\t\t\t\tgoto tr130",
  "\t\t\t\t}",
  "\t\t\tdefault:",
  "\t\t\t\tgoto tr130",
  "\t\t\t}",
  "\t\t\tgoto tr106",
  "\t\tcase 100:",
  "\t\t\tif (m.data)[(m.p)] == 45 {",
  "\t\t\t\tgoto tr131",
  "\t\t\t}",
  "\t\t\tswitch {",
  "\t\t\tcase (m.data)[(m.p)] < 65:",
  "\t\t\t\tif 48 <= (m.data)[(m.p)] && (m.data)[(m.p)] <= 57 {",
  "\t\t\t\t\tgoto tr132",
  "\t\t\t\t}",
  "\t\t\tcase (m.data)[(m.p)] > 90:",
  "\t\t\t\tif 97 <= (m.data)[(m.p)] && (m.data)[(m.p)] <= 122 {",
  "\t\t\t\t\tgoto tr132",
  "\t\t\t\t}",
  "\t\t\tdefault:",
  "\t\t\t\tgoto tr132",
  "\t\t\t}",
  "\t\t\tgoto tr106",
  "\t\tcase 101:",
  "\t\t\tif (m.data)[(m.p)] == 45 {",
  "\t\t\t\tgoto tr133",
  "\t\t\t}",
  "\t\t\tswitch {",
  "\t\t\tcase (m.data)[(m.p)] < 65:",
  "\t\t\t\tif 48 <= (m.data)[(m.p)] && (m.data)[(m.p)] <= 57 {",
  "\t\t\t\t\tgoto tr134",
  "\t\t\t\t}",
  "\t\t\tcase (m.data)[(m.p)] > 90:",
  "\t\t\t\tif 97 <= (m.data)[(m.p)] && (m.data)[(m.p)] <= 122 {",
  "\t\t\t\t\tgoto tr134",
  "\t\t\t\t}",
  "\t\t\tdefault:",
  "\t\t\t\tgoto tr134",
  "\t\t\t}",
  "\t\t\tgoto tr106",
  "\t\tcase 102:",
  "\t\t\tif (m.data)[(m.p)] == 45 {",
  "\t\t\t\tgoto tr135",
  "\t\t\t}",
  "\t\t\tswitch {",
  "\t\t\tcase (m.data)[(m.p)] < 65:",
  "\t\t\t\tif 48 <= (m.data)[(m.p)] && (m.data)[(m.p)] <= 57 {",
  "\t\t\t\t\tgoto tr136",
  "\t\t\t\t}",
  "\t\t\tcase (m.data)[(m.p)] > 90:",
  "\t\t\t\tif 97 <= (m.data)[(m.p)] && (m.data)[(m.p)] <= 122 {",
  "\t\t\t\t\tgoto tr136",
  "\t\t\t\t}",
  "\t\t\tdefault:",
  "\t\t\t\tgoto tr136",
  "\t\t\t}",
  "\t\t\tgoto tr106",
  "\t\tcase 103:",
  "\t\t\tif (m.data)[(m.p)] == 45 {",
  "\t\t\t\tgoto tr137",
  "\t\t\t}",
  "\t\t\tswitch {",
  "\t\t\tcase (m.data)[(m.p)] < 65:",
  "\t\t\t\tif 48 <= (m.data)[(m.p)] && (m.data)[(m.p)] <= 57 {",
  "\t\t\t\t\tgoto tr138",
  "\t\t\t\t}",
  "\t\t\tcase (m.data)[(m.p)] > 90:",
  "\t\t\t\tif 97 <= (m.data)[(m.p)] && (m.data)[(m.p)] <= 122 {",
  "\t\t\t\t\tgoto tr138",
  "\t\t\t\t}",
  "\t\t\tdefault:",
  "\t\t\t\tgoto tr138",
  "\t\t\t}",
  "\t\t\tgoto tr106",
  "\t\tcase 104:",
  "\t\t\tif (m.data)[(m.p)] == 45 {",
  "\t\t\t\tgoto tr139",
  "\t\t\t}",
  "\t\t\tswitch {",
  "\t\t\tcase (m.data)[(m.p)] < 65:",
  "\t\t\t\tif 48 <= (m.data)[(m.p)] && (m.data)[(m.p)] <= 57 {",
  "\t\t\t\t\tgoto tr140",
  "\t\t\t\t}",
  "\t\t\tcase (m.data)[(m.p)] > 90:",
  "\t\t\t\tif 97 <= (m.data)[(m.p)] && (m.data)[(m.p)] <= 122 {",
  "\t\t\t\t\tgoto tr140",
  "\t\t\t\t}",
  "\t\t\tdefault:",
  "\t\t\t\tgoto tr140",
  "\t\t\t}",
  "\t\t\tgoto tr106",
  "\t\tcase 105:",
  "\t\t\tif (m.data)[(m.p)] == 45 {",
  "\t\t\t\tgoto tr141",
  "\t\t\t}",
  "\t\t\tswitch {",
  "\t\t\tcase (m.data)[(m.p)] < 65:",
  "\t\t\t\tif 48 <= (m.data)[(m.p)] && (m.data)[(m.p)] <= 57 {",
  "\t\t\t\t\tgoto tr142",
  "\t\t\t\t}",
  "\t\t\tcase (m.data)[(m.p)] > 90:",
  "\t\t\t\tif 97 <= (m.data)[(m.p)] && (m.data)[(m.p)] <= 122 {",
  "\t\t\t\t\tgoto tr142",
  "\t\t\t\t}",
  "\t\t\tdefault:",
  "\t\t\t\tgoto tr142",
  "\t\t\t}",
  "\t\t\tgoto tr106",
  "\t\tcase 106:",
  "\t\t\tif (m.data)[(m.p)] == 45 {",
  "\t\t\t\tgoto tr143",
  "\t\t\t}",
  "\t\t\tswitch {",
  "\t\t\tcase (m.data)[(m.p)] < 65:",
  "\t\t\t\tif 48 <= (m.data)[(m.p)] && (m.data)[(m.p)] <= 57 {",
  "\t\t\t\t\tgoto tr144",
  "\t\t\t\t}",
  "\t\t\tcase (m.data)[(m.p)] > 90:",
  "\t\t\t\tif 97 <= (m.data)[(m.p)] && (m.data)[(m.p)] <= 122 {",
  "\t\t\t\t\tgoto tr144",
  "\t\t\t\t}",
  "\t\t\tdefault:",
  "\t\t\t\tgoto tr144",
  "\t\t\t}",
  "\t\t\tgoto tr106",
  "\t\tcase 107:",
  "\t\t\tif (m.data)[(m.p)] == 45 {",
  "\t\t\t\tgoto tr145",
  "\t\t\t}",
  "\t\t\tswitch {",
  "\t\t\tcase (m.data)[(m.p)] < 65:",
  "\t\t\t\tif 48 <= (m.data)[(m.p)] && (m.data)[(m.p)] <= 57 {",
  "\t\t\t\t\tgoto tr146",
  "\t\t\t\t}",
  "\t\t\tcase (m.data)[(m.p)] > 90:",
  "\t\t\t\tif 97 <= (m.data)[(m.p)] && (m.data)[(m.p)] <= 122 {",
  "\t\t\t\t\tgoto tr146",
  "\t\t\t\t}",
  "\t\t\tdefault:",
  "\t\t\t\tgoto tr146",
  "\t\t\t}",
  "\t\t\tgoto tr106",
  "\t\tcase 108:",
  "\t\t\tif (m.data)[(m.p)] == 45 {",
  "\t\t\t\tgoto tr147",
  "\t\t\t}",
  "\t\t\tswitch {",
  "\t\t\tcase (m.data)[(m.p)] < 65:",
  "\t\t\t\tif 48 <= (m.data)[(m.p)] && (m.data)[(m.p)] <= 57 {",
  "\t\t\t\t\tgoto tr148",
  "\t\t\t\t}",
  "\t\t\tcase (m.data)[(m.p)] > 90:",
  "\t\t\t\tif 97 <= (m.data)[(m.p)] && (m.data)[(m.p)] <= 122 {",
  "\t\t\t\t\tgoto tr148",
  "\t\t\t\t}",
  "\t\t\tdefault:",
  "\t\t\t\tgoto tr148",
  "\t\t\t}",
  "\t\t\tgoto tr106",
  "\t\tcase 109:",
  "\t\t\tif (m.data)[(m.p)] == 45 {",
  "\t\t\t\tgoto tr149",
  "\t\t\t}",
  "\t\t\tswitch {",
  "\t\t\tcase (m.data)[(m.p)] < 65:",
  "\t\t\t\tif 48 <= (m.data)[(m.p)] && (m.data)[(m.p)] <= 57 {",
  "\t\t\t\t\tgoto tr150",
  "\t\t\t\t}",
  "\t\t\tcase (m.data)[(m.p)] > 90:",
  "\t\t\t\tif 97 <= (m.data)[(m.p)] && (m.data)[(m.p)] <= 122 {",
  "\t\t\t\t\tgoto tr150",
  "\t\t\t\t}",
  "\t\t\tdefault:",
  "\t\t\t\tgoto tr150",
  "\t\t\t}",
  "\t\t\tgoto tr106",
  "\t\tcase 110:",
  "\t\t\tif (m.data)[(m.p)] == 45 {",
  "\t\t\t\tgoto tr151",
  "\t\t\t}",
  "\t\t\tswitch {",
  "\t\t\tcase (m.data)[(m.p)] < 65:",
  "\t\t\t\tif 48 <= (m.data)[(m.p)] && (m.data)[(m.p)] <= 57 {",
  "\t\t\t\t\tgoto tr152",
  "\t\t\t\t}",
  "\t\t\tcase (m.data)[(m.p)] > 90:",
  "\t\t\t\tif 97 <= (m.data)[(m.p)] && (m.data)[(m.p)] <= 122 {",
  "\t\t\t\t\tgoto tr152",
  "\t\t\t\t}",
  "\t\t\tdefault:",
  "\t\t\t\tgoto tr152",
  "\t\t\t}",
  "\t\t\tgoto tr106"]

/-- machine.go:1801-2000 -/
def machineGo9 : List String := [
  "\t\tcase 111:",
  "\t\t\tif (m.data)[(m.p)] == 45 {",
  "\t\t\t\tgoto tr153",
  "\t\t\t}",
  "\t\t\tswitch {",
  "\t\t\tcase (m.data)[(m.p)] < 65:",
  "\t\t\t\tif 48 <= (m.data)[(m.p)] && (m.data)[(m.p)] <= 57 {",
  "\t\t\t\t\tgoto tr154",
  "\t\t\t\t}",
  "\t\t\tcase (m.data)[(m.p)] > 90:",
  "\t\t\t\tif 97 <= (m.data)[(m.p)] && (m.data)[(m.p)] <= 122 {",
  "\t\t\t\t\tgoto tr154",
  "\t\t\t\t}",
  "\t\t\tdefault:",
  "\t\t\t\tgoto tr154",
  "\t\t\t}",
  "\t\t\tgoto tr106",
  "\t\tcase 112:",
  "\t\t\tif (m.data)[(m.p)] == 45 {",
  "\t\t\t\tgoto tr155",
  "\t\t\t}",
  "\t\t\tswitch {",
  "\t\t\tcase (m.data)[(m.p)] < 65:",
  "\t\t\t\tif 48 <= (m.data)[(m.p)] && (m.data)[(m.p)] <= 57 {",
  "\t\t\t\t\tgoto tr156",
  "\t\t\t\t}",
  "\t\t\tcase (m.data)[(m.p)] > 90:",
  "\t\t\t\tif 97 <= (m.data)[(m.p)] && (m.data)[(m.p)] <= 122 {",
  "\t\t\t\t\tgoto tr156",
  "\t\t\t\t}",
  "\t\t\tdefault:",
  "\t\t\t\tgoto tr156",
  "\t\t\t}",
  "\t\t\tgoto tr106",
  "\t\tcase 113:",
  "\t\t\tif (m.data)[(m.p)] == 45 {",
  "\t\t\t\tgoto tr157",
  "\t\t\t}",
  "\t\t\tswitch {",
  "\t\t\tcase (m.data)[(m.p)] < 65:",
  "\t\t\t\tif 48 <= (m.data)[(m.p)] && (m.data)[(m.p)] <= 57 {",
  "\t\t\t\t\tgoto tr158",
  "\t\t\t\t}",
  "\t\t\tcase (m.data)[(m.p)] > 90:",
  "\t\t\t\tif 97 <= (m.data)[(m.p)] && (m.data)[(m.p)] <= 122 {",
  "\t\t\t\t\tgoto tr158",
  "\t\t\t\t}",
  "\t\t\tdefault:",
  "\t\t\t\tgoto tr158",
  "\t\t\t}",
  "\t\t\tgoto tr106",
  "\t\tcase 114:",
  "\t\t\tif (m.data)[(m.p)] == 45 {",
  "\t\t\t\tgoto tr159",
  "\t\t\t}",
  "\t\t\tswitch {",
  "\t\t\tcase (m.data)[(m.p)] < 65:",
  "\t\t\t\tif 48 <= (m.data)[(m.p)] && (m.data)[(m.p)] <= 57 {",
  "\t\t\t\t\tgoto tr160",
  "\t\t\t\t}",
  "\t\t\tcase (m.data)[(m.p)] > 90:",
  "\t\t\t\tif 97 <= (m.data)[(m.p)] && (m.data)[(m.p)] <= 122 {",
  "\t\t\t\t\tgoto tr160",
  "\t\t\t\t}",
  "\t\t\tdefault:",
  "\t\t\t\tgoto tr160",
  "\t\t\t}",
  "\t\t\tgoto tr106",
  "\t\tcase 115:",
  "\t\t\tif (m.data)[(m.p)] == 45 {",
  "\t\t\t\tgoto tr161",
  "\t\t\t}",
  "\t\t\tswitch {",
  "\t\t\tcase (m.data)[(m.p)] < 65:",
  "\t\t\t\tif 48 <= (m.data)[(m.p)] && (m.data)[(m.p)] <= 57 {",
  "\t\t\t\t\tgoto tr162",
  "\t\t\t\t}",
  "\t\t\tcase (m.data)[(m.p)] > 90:",
  "\t\t\t\tif 97 <= (m.data)[(m.p)] && (m.data)[(m.p)] <= 122 {",
  "\t\t\t\t\tgoto tr162",
  "\t\t\t\t}",
  "\t\t\tdefault:",
  "\t\t\t\tgoto tr162",
  "\t\t\t}",
  "\t\t\tgoto tr106",
  "\t\tcase 116:",
  "\t\t\tif (m.data)[(m.p)] == 45 {",
  "\t\t\t\tgoto tr163",
  "\t\t\t}",
  "\t\t\tswitch {",
  "\t\t\tcase (m.data)[(m.p)] < 65:",
  "\t\t\t\tif 48 <= (m.data)[(m.p)] && (m.data)[(m.p)] <= 57 {",
  "\t\t\t\t\tgoto tr164",
  "\t\t\t\t}",
  "\t\t\tcase (m.data)[(m.p)] > 90:",
  "\t\t\t\tif 97 <= (m.data)[(m.p)] && (m.data)[(m.p)] <= 122 {",
  "\t\t\t\t\tgoto tr164",
  "\t\t\t\t}",
  "\t\t\tdefault:",
  "\t\t\t\tgoto tr164",
  "\t\t\t}",
  "\t\t\tgoto tr106",
  "\t\tcase 117:",
  "\t\t\tif (m.data)[(m.p)] == 45 {",
  "\t\t\t\tgoto tr165",
  "\t\t\t}",
  "\t\t\tswitch {",
  "\t\t\tcase (m.data)[(m.p)] < 65:",
  "\t\t\t\tif 48 <= (m.data)[(m.p)] && (m.data)[(m.p)] <= 57 {",
  "\t\t\t\t\tgoto tr166",
  "\t\t\t\t}",
  "\t\t\tcase (m.data)[(m.p)] > 90:",
  "\t\t\t\tif 97 <= (m.data)[(m.p)] && (m.data)[(m.p)] <= 122 {",
  "\t\t\t\t\tgoto tr166",
  "\t\t\t\t}",
  "\t\t\tdefault:",
  "\t\t\t\tgoto tr166",
  "\t\t\t}",
  "\t\t\tgoto tr106",
  "\t\tcase 118:",
  "\t\t\tswitch {",
  "\t\t\tcase (m.data)[(m.p)] < 65:",
  "\t\t\t\tif 48 <= (m.data)[(m.p)] && (m.data)[(m.p)] <= 57 {",
  "\t\t\t\t\tgoto tr167",
  "\t\t\t\t}",
  "\t\t\tcase (m.data)[(m.p)] > 90:",
  "\t\t\t\tif 97 <= (m.data)[(m.p)] && (m.data)[(m.p)] <= 122 {",
  "\t\t\t\t\tgoto tr167",
  "\t\t\t\t}",
  "\t\t\tdefault:",
  "\t\t\t\tgoto tr167",
  "\t\t\t}",
  "\t\t\tgoto tr106",
  "\t\tcase 119:",
  "\t\t\tif (m.data)[(m.p)] == 58 {",
  "\t\t\t\tgoto tr168",
  "\t\t\t}",
  "\t\t\tgoto tr106",
  "\t\tcase 120:",
  "\t\t\tswitch (m.data)[(m.p)] {",
  "\t\t\tcase 33:",
  "\t\t\t\tgoto tr170",
  "\t\t\tcase 37:",
  "\t\t\t\tgoto tr171",
  "\t\t\tcase 61:",
  "\t\t\t\tgoto tr170",
  "\t\t\tcase 95:",
  "\t\t\t\tgoto tr170",
  "\t\t\tcase 126:",
  "\t\t\t\tgoto tr170",
  "\t\t\t}",
  "\t\t\tswitch {",
  "\t\t\tcase (m.data)[(m.p)] < 48:",
  "\t\t\t\tif 36 <= (m.data)[(m.p)] && (m.data)[(m.p)] <= 46 {",
  "\t\t\t\t\tgoto tr170",
  "\t\t\t\t}",
  "\t\t\tcase (m.data)[(m.p)] > 59:",
  "\t\t\t\tswitch {",
  "\t\t\t\tcase (m.data)[(m.p)] > 90:",
  "\t\t\t\t\tif 97 <= (m.data)[(m.p)] && (m.data)[(m.p)] <= 122 {",
  "\t\t\t\t\t\tgoto tr170",
  "\t\t\t\t\t}",
  "\t\t\t\tcase (m.data)[(m.p)] >= 64:",
  "\t\t\t\t\tgoto tr170",
  "\t\t\t\t}",
  "\t\t\tdefault:",
  "\t\t\t\tgoto tr170",
  "\t\t\t}",
  "\t\t\tgoto tr169",
  "\t\tcase 177:",
  "\t\t\tswitch (m.data)[(m.p)] {",
  "\t\t\tcase 33:",
  "\t\t\t\tgoto tr218",
  "\t\t\tcase 35:",
  "\t\t\t\tgoto tr219",
  "\t\t\tcase 37:",
  "\t\t\t\tgoto tr220",
  "\t\t\tcase 61:",
  "\t\t\t\tgoto tr218",
  "\t\t\tcase 63:",
  "\t\t\t\tgoto tr221",
  "\t\t\tcase 95:",
  "\t\t\t\tgoto tr218",
  "\t\t\tcase 126:",
  "\t\t\t\tgoto tr218",
  "\t\t\t}",
  "\t\t\tswitch {",
  "\t\t\tcase (m.data)[(m.p)] < 64:",
  "\t\t\t\tif 36 <= (m.data)[(m.p)] && (m.data)[(m.p)] <= 59 {",
  "\t\t\t\t\tgoto tr218",
  "\t\t\t\t}",
  "\t\t\tcase (m.data)[(m.p)] > 90:",
  "\t\t\t\tif 97 <= (m.data)[(m.p)] && (m.data)[(m.p)] <= 122 {",
  "\t\t\t\t\tgoto tr218",
  "\t\t\t\t}",
  "\t\t\tdefault:",
  "\t\t\t\tgoto tr218",
  "\t\t\t}",
  "\t\t\tgoto tr169",
  "\t\tcase 178:"]

/-- machine.go:2001-2200 -/
def machineGo10 : List String := [
  "\t\t\tswitch (m.data)[(m.p)] {",
  "\t\t\tcase 33:",
  "\t\t\t\tgoto tr222",
  "\t\t\tcase 37:",
  "\t\t\t\tgoto tr223",
  "\t\t\tcase 61:",
  "\t\t\t\tgoto tr222",
  "\t\t\tcase 95:",
  "\t\t\t\tgoto tr222",
  "\t\t\tcase 126:",
  "\t\t\t\tgoto tr222",
  "\t\t\t}",
  "\t\t\tswitch {",
  "\t\t\tcase (m.data)[(m.p)] < 63:",
  "\t\t\t\tif 36 <= (m.data)[(m.p)] && (m.data)[(m.p)] <= 59 {",
  "\t\t\t\t\tgoto tr222",
  "\t\t\t\t}",
  "\t\t\tcase (m.data)[(m.p)] > 90:",
  "\t\t\t\tif 97 <= (m.data)[(m.p)] && (m.data)[(m.p)] <= 122 {",
  "\t\t\t\t\tgoto tr222",
  "\t\t\t\t}",
  "\t\t\tdefault:",
  "\t\t\t\tgoto tr222",
  "\t\t\t}",
  "\t\t\tgoto tr183",
  "\t\tcase 179:",
  "\t\t\tswitch (m.data)[(m.p)] {",
  "\t\t\tcase 33:",
  "\t\t\t\tgoto tr224",
  "\t\t\tcase 37:",
  "\t\t\t\tgoto tr225",
  "\t\t\tcase 61:",
  "\t\t\t\tgoto tr224",
  "\t\t\tcase 95:",
  "\t\t\t\tgoto tr224",
  "\t\t\tcase 126:",
  "\t\t\t\tgoto tr224",
  "\t\t\t}",
  "\t\t\tswitch {",
  "\t\t\tcase (m.data)[(m.p)] < 63:",
  "\t\t\t\tif 36 <= (m.data)[(m.p)] && (m.data)[(m.p)] <= 59 {",
  "\t\t\t\t\tgoto tr224",
  "\t\t\t\t}",
  "\t\t\tcase (m.data)[(m.p)] > 90:",
  "\t\t\t\tif 97 <= (m.data)[(m.p)] && (m.data)[(m.p)] <= 122 {",
  "\t\t\t\t\tgoto tr224",
  "\t\t\t\t}",
  "\t\t\tdefault:",
  "\t\t\t\tgoto tr224",
  "\t\t\t}",
  "\t\t\tgoto tr183",
  "\t\tcase 121:",
  "\t\t\tswitch {",
  "\t\t\tcase (m.data)[(m.p)] < 65:",
  "\t\t\t\tif 48 <= (m.data)[(m.p)] && (m.data)[(m.p)] <= 57 {",
  "\t\t\t\t\tgoto tr173",
  "\t\t\t\t}",
  "\t\t\tcase (m.data)[(m.p)] > 90:",
  "\t\t\t\tif 97 <= (m.data)[(m.p)] && (m.data)[(m.p)] <= 122 {",
  "\t\t\t\t\tgoto tr173",
  "\t\t\t\t}",
  "\t\t\tdefault:",
  "\t\t\t\tgoto tr174",
  "\t\t\t}",
  "\t\t\tgoto tr172",
  "\t\tcase 122:",
  "\t\t\tswitch {",
  "\t\t\tcase (m.data)[(m.p)] < 65:",
  "\t\t\t\tif 48 <= (m.data)[(m.p)] && (m.data)[(m.p)] <= 57 {",
  "\t\t\t\t\tgoto tr175",
  "\t\t\t\t}",
  "\t\t\tcase (m.data)[(m.p)] > 90:",
  "\t\t\t\tif 97 <= (m.data)[(m.p)] && (m.data)[(m.p)] <= 122 {",
  "\t\t\t\t\tgoto tr175",
  "\t\t\t\t}",
  "\t\t\tdefault:",
  "\t\t\t\tgoto tr176",
  "\t\t\t}",
  "\t\t\tgoto tr172",
  "\t\tcase 180:",
  "\t\t\tswitch (m.data)[(m.p)] {",
  "\t\t\tcase 33:",
  "\t\t\t\tgoto tr224",
  "\t\t\tcase 37:",
  "\t\t\t\tgoto tr225",
  "\t\t\tcase 61:",
  "\t\t\t\tgoto tr224",
  "\t\t\tcase 95:",
  "\t\t\t\tgoto tr224",
  "\t\t\tcase 126:",
  "\t\t\t\tgoto tr224",
  "\t\t\t}",
  "\t\t\tswitch {",
  "\t\t\tcase (m.data)[(m.p)] < 63:",
  "\t\t\t\tif 36 <= (m.data)[(m.p)] && (m.data)[(m.p)] <= 59 {",
  "\t\t\t\t\tgoto tr224",
  "\t\t\t\t}",
  "\t\t\tcase (m.data)[(m.p)] > 90:",
  "\t\t\t\tif 97 <= (m.data)[(m.p)] && (m.data)[(m.p)] <= 122 {",
  "\t\t\t\t\tgoto tr224",
  "\t\t\t\t}",
  "\t\t\tdefault:",
  "\t\t\t\tgoto tr224",
  "\t\t\t}",
  "\t\t\tgoto tr172",
  "\t\tcase 123:",
  "\t\t\tswitch {",
  "\t\t\tcase (m.data)[(m.p)] < 65:",
  "\t\t\t\tif 48 <= (m.data)[(m.p)] && (m.data)[(m.p)] <= 57 {",
  "\t\t\t\t\tgoto tr178",
  "\t\t\t\t}",
  "\t\t\tcase (m.data)[(m.p)] > 90:",
  "\t\t\t\tif 97 <= (m.data)[(m.p)] && (m.data)[(m.p)] <= 122 {",
  "\t\t\t\t\tgoto tr178",
  "\t\t\t\t}",
  "\t\t\tdefault:",
  "\t\t\t\tgoto tr179",
  "\t\t\t}",
  "\t\t\tgoto tr177",
  "\t\tcase 124:",
  "\t\t\tswitch {",
  "\t\t\tcase (m.data)[(m.p)] < 65:",
  "\t\t\t\tif 48 <= (m.data)[(m.p)] && (m.data)[(m.p)] <= 57 {",
  "\t\t\t\t\tgoto tr180",
  "\t\t\t\t}",
  "\t\t\tcase (m.data)[(m.p)] > 90:",
  "\t\t\t\tif 97 <= (m.data)[(m.p)] && (m.data)[(m.p)] <= 122 {",
  "\t\t\t\t\tgoto tr180",
  "\t\t\t\t}",
  "\t\t\tdefault:",
  "\t\t\t\tgoto tr181",
  "\t\t\t}",
  "\t\t\tgoto tr177",
  "\t\tcase 181:",
  "\t\t\tswitch (m.data)[(m.p)] {",
  "\t\t\tcase 33:",
  "\t\t\t\tgoto tr218",
  "\t\t\tcase 35:",
  "\t\t\t\tgoto tr219",
  "\t\t\tcase 37:",
  "\t\t\t\tgoto tr220",
  "\t\t\tcase 61:",
  "\t\t\t\tgoto tr218",
  "\t\t\tcase 63:",
  "\t\t\t\tgoto tr221",
  "\t\t\tcase 95:",
  "\t\t\t\tgoto tr218",
  "\t\t\tcase 126:",
  "\t\t\t\tgoto tr218",
  "\t\t\t}",
  "\t\t\tswitch {",
  "\t\t\tcase (m.data)[(m.p)] < 64:",
  "\t\t\t\tif 36 <= (m.data)[(m.p)] && (m.data)[(m.p)] <= 59 {",
  "\t\t\t\t\tgoto tr218",
  "\t\t\t\t}",
  "\t\t\tcase (m.data)[(m.p)] > 90:",
  "\t\t\t\tif 97 <= (m.data)[(m.p)] && (m.data)[(m.p)] <= 122 {",
  "\t\t\t\t\tgoto tr218",
  "\t\t\t\t}",
  "\t\t\tdefault:",
  "\t\t\t\tgoto tr218",
  "\t\t\t}",
  "\t\t\tgoto tr177",
  "\t\tcase 125:",
  "\t\t\tswitch (m.data)[(m.p)] {",
  "\t\t\tcase 43:",
  "\t\t\t\tgoto tr182",
  "\t\t\tcase 61:",
  "\t\t\t\tgoto tr184",
  "\t\t\t}",
  "\t\t\tgoto tr183",
  "\t\tcase 126:",
  "\t\t\tswitch (m.data)[(m.p)] {",
  "\t\t\tcase 33:",
  "\t\t\t\tgoto tr186",
  "\t\t\tcase 37:",
  "\t\t\t\tgoto tr187",
  "\t\t\tcase 61:",
  "\t\t\t\tgoto tr186",
  "\t\t\tcase 63:",
  "\t\t\t\tgoto tr188",
  "\t\t\tcase 95:",
  "\t\t\t\tgoto tr186",
  "\t\t\tcase 126:",
  "\t\t\t\tgoto tr186",
  "\t\t\t}",
  "\t\t\tswitch {",
  "\t\t\tcase (m.data)[(m.p)] < 48:",
  "\t\t\t\tif 36 <= (m.data)[(m.p)] && (m.data)[(m.p)] <= 46 {",
  "\t\t\t\t\tgoto tr186",
  "\t\t\t\t}",
  "\t\t\tcase (m.data)[(m.p)] > 59:",
  "\t\t\t\tswitch {",
  "\t\t\t\tcase (m.data)[(m.p)] > 90:",
  "\t\t\t\t\tif 97 <= (m.data)[(m.p)] && (m.data)[(m.p)] <= 122 {",
  "\t\t\t\t\t\tgoto tr186",
  "\t\t\t\t\t}",
  "\t\t\t\tcase (m.data)[(m.p)] >= 64:",
  "\t\t\t\t\tgoto tr186",
  "\t\t\t\t}"]

/-- machine.go:2201-2400 -/
def machineGo11 : List String := [
  "\t\t\tdefault:",
  "\t\t\t\tgoto tr186",
  "\t\t\t}",
  "\t\t\tgoto tr185",
  "\t\tcase 182:",
  "\t\t\tswitch (m.data)[(m.p)] {",
  "\t\t\tcase 33:",
  "\t\t\t\tgoto tr226",
  "\t\t\tcase 35:",
  "\t\t\t\tgoto tr227",
  "\t\t\tcase 37:",
  "\t\t\t\tgoto tr228",
  "\t\t\tcase 61:",
  "\t\t\t\tgoto tr226",
  "\t\t\tcase 63:",
  "\t\t\t\tgoto tr229",
  "\t\t\tcase 95:",
  "\t\t\t\tgoto tr226",
  "\t\t\tcase 126:",
  "\t\t\t\tgoto tr226",
  "\t\t\t}",
  "\t\t\tswitch {",
  "\t\t\tcase (m.data)[(m.p)] < 64:",
  "\t\t\t\tif 36 <= (m.data)[(m.p)] && (m.data)[(m.p)] <= 59 {",
  "\t\t\t\t\tgoto tr226",
  "\t\t\t\t}",
  "\t\t\tcase (m.data)[(m.p)] > 90:",
  "\t\t\t\tif 97 <= (m.data)[(m.p)] && (m.data)[(m.p)] <= 122 {",
  "\t\t\t\t\tgoto tr226",
  "\t\t\t\t}",
  "\t\t\tdefault:",
  "\t\t\t\tgoto tr226",
  "\t\t\t}",
  "\t\t\tgoto tr185",
  "\t\tcase 127:",
  "\t\t\tswitch {",
  "\t\t\tcase (m.data)[(m.p)] < 65:",
  "\t\t\t\tif 48 <= (m.data)[(m.p)] && (m.data)[(m.p)] <= 57 {",
  "\t\t\t\t\tgoto tr190",
  "\t\t\t\t}",
  "\t\t\tcase (m.data)[(m.p)] > 90:",
  "\t\t\t\tif 97 <= (m.data)[(m.p)] && (m.data)[(m.p)] <= 122 {",
  "\t\t\t\t\tgoto tr190",
  "\t\t\t\t}",
  "\t\t\tdefault:",
  "\t\t\t\tgoto tr191",
  "\t\t\t}",
  "\t\t\tgoto tr189",
  "\t\tcase 128:",
  "\t\t\tswitch {",
  "\t\t\tcase (m.data)[(m.p)] < 65:",
  "\t\t\t\tif 48 <= (m.data)[(m.p)] && (m.data)[(m.p)] <= 57 {",
  "\t\t\t\t\tgoto tr192",
  "\t\t\t\t}",
  "\t\t\tcase (m.data)[(m.p)] > 90:",
  "\t\t\t\tif 97 <= (m.data)[(m.p)] && (m.data)[(m.p)] <= 122 {",
  "\t\t\t\t\tgoto tr192",
  "\t\t\t\t}",
  "\t\t\tdefault:",
  "\t\t\t\tgoto tr193",
  "\t\t\t}",
  "\t\t\tgoto tr189",
  "\t\tcase 183:",
  "\t\t\tswitch (m.data)[(m.p)] {",
  "\t\t\tcase 33:",
  "\t\t\t\tgoto tr226",
  "\t\t\tcase 35:",
  "\t\t\t\tgoto tr227",
  "\t\t\tcase 37:",
  "\t\t\t\tgoto tr228",
  "\t\t\tcase 61:",
  "\t\t\t\tgoto tr226",
  "\t\t\tcase 63:",
  "\t\t\t\tgoto tr229",
  "\t\t\tcase 95:",
  "\t\t\t\tgoto tr226",
  "\t\t\tcase 126:",
  "\t\t\t\tgoto tr226",
  "\t\t\t}",
  "\t\t\tswitch {",
  "\t\t\tcase (m.data)[(m.p)] < 64:",
  "\t\t\t\tif 36 <= (m.data)[(m.p)] && (m.data)[(m.p)] <= 59 {",
  "\t\t\t\t\tgoto tr226",
  "\t\t\t\t}",
  "\t\t\tcase (m.data)[(m.p)] > 90:",
  "\t\t\t\tif 97 <= (m.data)[(m.p)] && (m.data)[(m.p)] <= 122 {",
  "\t\t\t\t\tgoto tr226",
  "\t\t\t\t}",
  "\t\t\tdefault:",
  "\t\t\t\tgoto tr226",
  "\t\t\t}",
  "\t\t\tgoto tr189",
  "\t\tcase 184:",
  "\t\t\tswitch (m.data)[(m.p)] {",
  "\t\t\tcase 33:",
  "\t\t\t\tgoto tr226",
  "\t\t\tcase 35:",
  "\t\t\t\tgoto tr227",
  "\t\t\tcase 37:",
  "\t\t\t\tgoto tr228",
  "\t\t\tcase 43:",
  "\t\t\t\tgoto tr230",
  "\t\t\tcase 61:",
  "\t\t\t\tgoto tr231",
  "\t\t\tcase 63:",
  "\t\t\t\tgoto tr229",
  "\t\t\tcase 95:",
  "\t\t\t\tgoto tr226",
  "\t\t\tcase 126:",
  "\t\t\t\tgoto tr226",
  "\t\t\t}",
  "\t\t\tswitch {",
  "\t\t\tcase (m.data)[(m.p)] < 64:",
  "\t\t\t\tif 36 <= (m.data)[(m.p)] && (m.data)[(m.p)] <= 59 {",
  "\t\t\t\t\tgoto tr226",
  "\t\t\t\t}",
  "\t\t\tcase (m.data)[(m.p)] > 90:",
  "\t\t\t\tif 97 <= (m.data)[(m.p)] && (m.data)[(m.p)] <= 122 {",
  "\t\t\t\t\tgoto tr226",
  "\t\t\t\t}",
  "\t\t\tdefault:",
  "\t\t\t\tgoto tr226",
  "\t\t\t}",
  "\t\t\tgoto tr185",
  "\t\tcase 185:",
  "\t\t\tswitch (m.data)[(m.p)] {",
  "\t\t\tcase 33:",
  "\t\t\t\tgoto tr232",
  "\t\t\tcase 35:",
  "\t\t\t\tgoto tr233",
  "\t\t\tcase 37:",
  "\t\t\t\tgoto tr234",
  "\t\t\tcase 47:",
  "\t\t\t\tgoto tr226",
  "\t\t\tcase 61:",
  "\t\t\t\tgoto tr232",
  "\t\t\tcase 63:",
  "\t\t\t\tgoto tr235",
  "\t\t\tcase 95:",
  "\t\t\t\tgoto tr232",
  "\t\t\tcase 126:",
  "\t\t\t\tgoto tr232",
  "\t\t\t}",
  "\t\t\tswitch {",
  "\t\t\tcase (m.data)[(m.p)] < 64:",
  "\t\t\t\tif 36 <= (m.data)[(m.p)] && (m.data)[(m.p)] <= 59 {",
  "\t\t\t\t\tgoto tr232",
  "\t\t\t\t}",
  "\t\t\tcase (m.data)[(m.p)] > 90:",
  "\t\t\t\tif 97 <= (m.data)[(m.p)] && (m.data)[(m.p)] <= 122 {",
  "\t\t\t\t\tgoto tr232",
  "\t\t\t\t}",
  "\t\t\tdefault:",
  "\t\t\t\tgoto tr232",
  "\t\t\t}",
  "\t\t\tgoto tr185",
  "\t\tcase 186:",
  "\t\t\tswitch (m.data)[(m.p)] {",
  "\t\t\tcase 33:",
  "\t\t\t\tgoto tr204",
  "\t\t\tcase 35:",
  "\t\t\t\tgoto tr227",
  "\t\t\tcase 37:",
  "\t\t\t\tgoto tr237",
  "\t\t\tcase 47:",
  "\t\t\t\tgoto tr226",
  "\t\t\tcase 61:",
  "\t\t\t\tgoto tr204",
  "\t\t\tcase 63:",
  "\t\t\t\tgoto tr229",
  "\t\t\tcase 95:",
  "\t\t\t\tgoto tr204",
  "\t\t\tcase 126:",
  "\t\t\t\tgoto tr204",
  "\t\t\t}",
  "\t\t\tswitch {",
  "\t\t\tcase (m.data)[(m.p)] < 64:",
  "\t\t\t\tif 36 <= (m.data)[(m.p)] && (m.data)[(m.p)] <= 59 {",
  "\t\t\t\t\tgoto tr204",
  "\t\t\t\t}",
  "\t\t\tcase (m.data)[(m.p)] > 90:",
  "\t\t\t\tif 97 <= (m.data)[(m.p)] && (m.data)[(m.p)] <= 122 {",
  "\t\t\t\t\tgoto tr204",
  "\t\t\t\t}",
  "\t\t\tdefault:",
  "\t\t\t\tgoto tr204",
  "\t\t\t}",
  "\t\t\tgoto tr236",
  "\t\tcase 187:",
  "\t\t\tswitch (m.data)[(m.p)] {",
  "\t\t\tcase 33:",
  "\t\t\t\tgoto tr238",
  "\t\t\tcase 35:",
  "\t\t\t\tgoto tr239",
  "\t\t\tcase 37:",
  "\t\t\t\tgoto tr240",
  "\t\t\tcase 61:",
  "\t\t\t\tgoto tr238",
  "\t\t\tcase 63:",
  "\t\t\t\tgoto tr241"]

/-- machine.go:2401-2600 -/
def machineGo12 : List String := [
  "\t\t\tcase 95:",
  "\t\t\t\tgoto tr238",
  "\t\t\tcase 126:",
  "\t\t\t\tgoto tr238",
  "\t\t\t}",
  "\t\t\tswitch {",
  "\t\t\tcase (m.data)[(m.p)] < 64:",
  "\t\t\t\tif 36 <= (m.data)[(m.p)] && (m.data)[(m.p)] <= 59 {",
  "\t\t\t\t\tgoto tr238",
  "\t\t\t\t}",
  "\t\t\tcase (m.data)[(m.p)] > 90:",
  "\t\t\t\tif 97 <= (m.data)[(m.p)] && (m.data)[(m.p)] <= 122 {",
  "\t\t\t\t\tgoto tr238",
  "\t\t\t\t}",
  "\t\t\tdefault:",
  "\t\t\t\tgoto tr238",
  "\t\t\t}",
  "\t\t\tgoto tr203",
  "\t\tcase 129:",
  "\t\t\tswitch {",
  "\t\t\tcase (m.data)[(m.p)] < 65:",
  "\t\t\t\tif 48 <= (m.data)[(m.p)] && (m.data)[(m.p)] <= 57 {",
  "\t\t\t\t\tgoto tr195",
  "\t\t\t\t}",
  "\t\t\tcase (m.data)[(m.p)] > 90:",
  "\t\t\t\tif 97 <= (m.data)[(m.p)] && (m.data)[(m.p)] <= 122 {",
  "\t\t\t\t\tgoto tr195",
  "\t\t\t\t}",
  "\t\t\tdefault:",
  "\t\t\t\tgoto tr196",
  "\t\t\t}",
  "\t\t\tgoto tr194",
  "\t\tcase 130:",
  "\t\t\tswitch {",
  "\t\t\tcase (m.data)[(m.p)] < 65:",
  "\t\t\t\tif 48 <= (m.data)[(m.p)] && (m.data)[(m.p)] <= 57 {",
  "\t\t\t\t\tgoto tr197",
  "\t\t\t\t}",
  "\t\t\tcase (m.data)[(m.p)] > 90:",
  "\t\t\t\tif 97 <= (m.data)[(m.p)] && (m.data)[(m.p)] <= 122 {",
  "\t\t\t\t\tgoto tr197",
  "\t\t\t\t}",
  "\t\t\tdefault:",
  "\t\t\t\tgoto tr198",
  "\t\t\t}",
  "\t\t\tgoto tr194",
  "\t\tcase 188:",
  "\t\t\tswitch (m.data)[(m.p)] {",
  "\t\t\tcase 33:",
  "\t\t\t\tgoto tr238",
  "\t\t\tcase 35:",
  "\t\t\t\tgoto tr239",
  "\t\t\tcase 37:",
  "\t\t\t\tgoto tr240",
  "\t\t\tcase 61:",
  "\t\t\t\tgoto tr238",
  "\t\t\tcase 63:",
  "\t\t\t\tgoto tr241",
  "\t\t\tcase 95:",
  "\t\t\t\tgoto tr238",
  "\t\t\tcase 126:",
  "\t\t\t\tgoto tr238",
  "\t\t\t}",
  "\t\t\tswitch {",
  "\t\t\tcase (m.data)[(m.p)] < 64:",
  "\t\t\t\tif 36 <= (m.data)[(m.p)] && (m.data)[(m.p)] <= 59 {",
  "\t\t\t\t\tgoto tr238",
  "\t\t\t\t}",
  "\t\t\tcase (m.data)[(m.p)] > 90:",
  "\t\t\t\tif 97 <= (m.data)[(m.p)] && (m.data)[(m.p)] <= 122 {",
  "\t\t\t\t\tgoto tr238",
  "\t\t\t\t}",
  "\t\t\tdefault:",
  "\t\t\t\tgoto tr238",
  "\t\t\t}",
  "\t\t\tgoto tr194",
  "\t\tcase 189:",
  "\t\t\tswitch (m.data)[(m.p)] {",
  "\t\t\tcase 33:",
  "\t\t\t\tgoto tr238",
  "\t\t\tcase 35:",
  "\t\t\t\tgoto tr239",
  "\t\t\tcase 37:",
  "\t\t\t\tgoto tr240",
  "\t\t\tcase 61:",
  "\t\t\t\tgoto tr242",
  "\t\t\tcase 63:",
  "\t\t\t\tgoto tr241",
  "\t\t\tcase 95:",
  "\t\t\t\tgoto tr238",
  "\t\t\tcase 126:",
  "\t\t\t\tgoto tr238",
  "\t\t\t}",
  "\t\t\tswitch {",
  "\t\t\tcase (m.data)[(m.p)] < 64:",
  "\t\t\t\tif 36 <= (m.data)[(m.p)] && (m.data)[(m.p)] <= 59 {",
  "\t\t\t\t\tgoto tr238",
  "\t\t\t\t}",
  "\t\t\tcase (m.data)[(m.p)] > 90:",
  "\t\t\t\tif 97 <= (m.data)[(m.p)] && (m.data)[(m.p)] <= 122 {",
  "\t\t\t\t\tgoto tr238",
  "\t\t\t\t}",
  "\t\t\tdefault:",
  "\t\t\t\tgoto tr238",
  "\t\t\t}",
  "\t\t\tgoto tr203",
  "\t\tcase 190:",
  "\t\t\tswitch (m.data)[(m.p)] {",
  "\t\t\tcase 33:",
  "\t\t\t\tgoto tr243",
  "\t\t\tcase 35:",
  "\t\t\t\tgoto tr244",
  "\t\t\tcase 37:",
  "\t\t\t\tgoto tr245",
  "\t\t\tcase 47:",
  "\t\t\t\tgoto tr238",
  "\t\t\tcase 61:",
  "\t\t\t\tgoto tr243",
  "\t\t\tcase 63:",
  "\t\t\t\tgoto tr246",
  "\t\t\tcase 95:",
  "\t\t\t\tgoto tr243",
  "\t\t\tcase 126:",
  "\t\t\t\tgoto tr243",
  "\t\t\t}",
  "\t\t\tswitch {",
  "\t\t\tcase (m.data)[(m.p)] < 64:",
  "\t\t\t\tif 36 <= (m.data)[(m.p)] && (m.data)[(m.p)] <= 59 {",
  "\t\t\t\t\tgoto tr243",
  "\t\t\t\t}",
  "\t\t\tcase (m.data)[(m.p)] > 90:",
  "\t\t\t\tif 97 <= (m.data)[(m.p)] && (m.data)[(m.p)] <= 122 {",
  "\t\t\t\t\tgoto tr243",
  "\t\t\t\t}",
  "\t\t\tdefault:",
  "\t\t\t\tgoto tr243",
  "\t\t\t}",
  "\t\t\tgoto tr203",
  "\t\tcase 131:",
  "\t\t\tswitch {",
  "\t\t\tcase (m.data)[(m.p)] < 65:",
  "\t\t\t\tif 48 <= (m.data)[(m.p)] && (m.data)[(m.p)] <= 57 {",
  "\t\t\t\t\tgoto tr200",
  "\t\t\t\t}",
  "\t\t\tcase (m.data)[(m.p)] > 90:",
  "\t\t\t\tif 97 <= (m.data)[(m.p)] && (m.data)[(m.p)] <= 122 {",
  "\t\t\t\t\tgoto tr200",
  "\t\t\t\t}",
  "\t\t\tdefault:",
  "\t\t\t\tgoto tr201",
  "\t\t\t}",
  "\t\t\tgoto tr199",
  "\t\tcase 132:",
  "\t\t\tswitch {",
  "\t\t\tcase (m.data)[(m.p)] < 65:",
  "\t\t\t\tif 48 <= (m.data)[(m.p)] && (m.data)[(m.p)] <= 57 {",
  "\t\t\t\t\tgoto tr197",
  "\t\t\t\t}",
  "\t\t\tcase (m.data)[(m.p)] > 90:",
  "\t\t\t\tif 97 <= (m.data)[(m.p)] && (m.data)[(m.p)] <= 122 {",
  "\t\t\t\t\tgoto tr197",
  "\t\t\t\t}",
  "\t\t\tdefault:",
  "\t\t\t\tgoto tr198",
  "\t\t\t}",
  "\t\t\tgoto tr199",
  "\t\tcase 133:",
  "\t\t\tif (m.data)[(m.p)] == 43 {",
  "\t\t\t\tgoto tr202",
  "\t\t\t}",
  "\t\t\tgoto tr185",
  "\t\tcase 191:",
  "\t\t\tswitch (m.data)[(m.p)] {",
  "\t\t\tcase 33:",
  "\t\t\t\tgoto tr232",
  "\t\t\tcase 35:",
  "\t\t\t\tgoto tr233",
  "\t\t\tcase 37:",
  "\t\t\t\tgoto tr234",
  "\t\t\tcase 61:",
  "\t\t\t\tgoto tr232",
  "\t\t\tcase 63:",
  "\t\t\t\tgoto tr247",
  "\t\t\tcase 95:",
  "\t\t\t\tgoto tr232",
  "\t\t\tcase 126:",
  "\t\t\t\tgoto tr232",
  "\t\t\t}",
  "\t\t\tswitch {",
  "\t\t\tcase (m.data)[(m.p)] < 48:",
  "\t\t\t\tif 36 <= (m.data)[(m.p)] && (m.data)[(m.p)] <= 46 {",
  "\t\t\t\t\tgoto tr232",
  "\t\t\t\t}",
  "\t\t\tcase (m.data)[(m.p)] > 59:",
  "\t\t\t\tswitch {",
  "\t\t\t\tcase (m.data)[(m.p)] > 90:",
  "\t\t\t\t\tif 97 <= (m.data)[(m.p)] && (m.data)[(m.p)] <= 122 {",
  "\t\t\t\t\t\tgoto tr232",
  "\t\t\t\t\t}",
  "\t\t\t\tcase (m.data)[(m.p)] >= 64:"]

/-- machine.go:2601-2800 -/
def machineGo13 : List String := [
  "\t\t\t\t\tgoto tr232",
  "\t\t\t\t}",
  "\t\t\tdefault:",
  "\t\t\t\tgoto tr232",
  "\t\t\t}",
  "\t\t\tgoto tr185",
  "\t\tcase 134:",
  "\t\t\tswitch (m.data)[(m.p)] {",
  "\t\t\tcase 43:",
  "\t\t\t\tgoto tr202",
  "\t\t\tcase 61:",
  "\t\t\t\tgoto tr184",
  "\t\t\t}",
  "\t\t\tgoto tr185",
  "\t\tcase 135:",
  "\t\t\tswitch (m.data)[(m.p)] {",
  "\t\t\tcase 33:",
  "\t\t\t\tgoto tr204",
  "\t\t\tcase 37:",
  "\t\t\t\tgoto tr205",
  "\t\t\tcase 61:",
  "\t\t\t\tgoto tr204",
  "\t\t\tcase 63:",
  "\t\t\t\tgoto tr206",
  "\t\t\tcase 95:",
  "\t\t\t\tgoto tr204",
  "\t\t\tcase 126:",
  "\t\t\t\tgoto tr204",
  "\t\t\t}",
  "\t\t\tswitch {",
  "\t\t\tcase (m.data)[(m.p)] < 48:",
  "\t\t\t\tif 36 <= (m.data)[(m.p)] && (m.data)[(m.p)] <= 46 {",
  "\t\t\t\t\tgoto tr204",
  "\t\t\t\t}",
  "\t\t\tcase (m.data)[(m.p)] > 59:",
  "\t\t\t\tswitch {",
  "\t\t\t\tcase (m.data)[(m.p)] > 90:",
  "\t\t\t\t\tif 97 <= (m.data)[(m.p)] && (m.data)[(m.p)] <= 122 {",
  "\t\t\t\t\t\tgoto tr204",
  "\t\t\t\t\t}",
  "\t\t\t\tcase (m.data)[(m.p)] >= 64:",
  "\t\t\t\t\tgoto tr204",
  "\t\t\t\t}",
  "\t\t\tdefault:",
  "\t\t\t\tgoto tr204",
  "\t\t\t}",
  "\t\t\tgoto tr203",
  "\t\tcase 136:",
  "\t\t\tif (m.data)[(m.p)] == 61 {",
  "\t\t\t\tgoto tr207",
  "\t\t\t}",
  "\t\t\tgoto tr203",
  "\t\tcase 192:",
  "\t\t\tswitch (m.data)[(m.p)] {",
  "\t\t\tcase 33:",
  "\t\t\t\tgoto tr243",
  "\t\t\tcase 35:",
  "\t\t\t\tgoto tr244",
  "\t\t\tcase 37:",
  "\t\t\t\tgoto tr245",
  "\t\t\tcase 61:",
  "\t\t\t\tgoto tr243",
  "\t\t\tcase 63:",
  "\t\t\t\tgoto tr248",
  "\t\t\tcase 95:",
  "\t\t\t\tgoto tr243",
  "\t\t\tcase 126:",
  "\t\t\t\tgoto tr243",
  "\t\t\t}",
  "\t\t\tswitch {",
  "\t\t\tcase (m.data)[(m.p)] < 48:",
  "\t\t\t\tif 36 <= (m.data)[(m.p)] && (m.data)[(m.p)] <= 46 {",
  "\t\t\t\t\tgoto tr243",
  "\t\t\t\t}",
  "\t\t\tcase (m.data)[(m.p)] > 59:",
  "\t\t\t\tswitch {",
  "\t\t\t\tcase (m.data)[(m.p)] > 90:",
  "\t\t\t\t\tif 97 <= (m.data)[(m.p)] && (m.data)[(m.p)] <= 122 {",
  "\t\t\t\t\t\tgoto tr243",
  "\t\t\t\t\t}",
  "\t\t\t\tcase (m.data)[(m.p)] >= 64:",
  "\t\t\t\t\tgoto tr243",
  "\t\t\t\t}",
  "\t\t\tdefault:",
  "\t\t\t\tgoto tr243",
  "\t\t\t}",
  "\t\t\tgoto tr203",
  "\t\tcase 137:",
  "\t\t\tif (m.data)[(m.p)] == 58 {",
  "\t\t\t\tgoto tr168",
  "\t\t\t}",
  "\t\t\tswitch {",
  "\t\t\tcase (m.data)[(m.p)] < 65:",
  "\t\t\t\tif 48 <= (m.data)[(m.p)] && (m.data)[(m.p)] <= 57 {",
  "\t\t\t\t\tgoto tr167",
  "\t\t\t\t}",
  "\t\t\tcase (m.data)[(m.p)] > 90:",
  "\t\t\t\tif 97 <= (m.data)[(m.p)] && (m.data)[(m.p)] <= 122 {",
  "\t\t\t\t\tgoto tr167",
  "\t\t\t\t}",
  "\t\t\tdefault:",
  "\t\t\t\tgoto tr167",
  "\t\t\t}",
  "\t\t\tgoto tr106",
  "\t\tcase 138:",
  "\t\t\tswitch (m.data)[(m.p)] {",
  "\t\t\tcase 45:",
  "\t\t\t\tgoto tr165",
  "\t\t\tcase 58:",
  "\t\t\t\tgoto tr168",
  "\t\t\t}",
  "\t\t\tswitch {",
  "\t\t\tcase (m.data)[(m.p)] < 65:",
  "\t\t\t\tif 48 <= (m.data)[(m.p)] && (m.data)[(m.p)] <= 57 {",
  "\t\t\t\t\tgoto tr166",
  "\t\t\t\t}",
  "\t\t\tcase (m.data)[(m.p)] > 90:",
  "\t\t\t\tif 97 <= (m.data)[(m.p)] && (m.data)[(m.p)] <= 122 {",
  "\t\t\t\t\tgoto tr166",
  "\t\t\t\t}",
  "\t\t\tdefault:",
  "\t\t\t\tgoto tr166",
  "\t\t\t}",
  "\t\t\tgoto tr106",
  "\t\tcase 139:",
  "\t\t\tswitch (m.data)[(m.p)] {",
  "\t\t\tcase 45:",
  "\t\t\t\tgoto tr163",
  "\t\t\tcase 58:",
  "\t\t\t\tgoto tr168",
  "\t\t\t}",
  "\t\t\tswitch {",
  "\t\t\tcase (m.data)[(m.p)] < 65:",
  "\t\t\t\tif 48 <= (m.data)[(m.p)] && (m.data)[(m.p)] <= 57 {",
  "\t\t\t\t\tgoto tr164",
  "\t\t\t\t}",
  "\t\t\tcase (m.data)[(m.p)] > 90:",
  "\t\t\t\tif 97 <= (m.data)[(m.p)] && (m.data)[(m.p)] <= 122 {",
  "\t\t\t\t\tgoto tr164",
  "\t\t\t\t}",
  "\t\t\tdefault:",
  "\t\t\t\tgoto tr164",
  "\t\t\t}",
  "\t\t\tgoto tr106",
  "\t\tcase 140:",
  "\t\t\tswitch (m.data)[(m.p)] {",
  "\t\t\tcase 45:",
  "\t\t\t\tgoto tr161",
  "\t\t\tcase 58:",
  "\t\t\t\tgoto tr168",
  "\t\t\t}",
  "\t\t\tswitch {",
  "\t\t\tcase (m.data)[(m.p)] < 65:",
  "\t\t\t\tif 48 <= (m.data)[(m.p)] && (m.data)[(m.p)] <= 57 {",
  "\t\t\t\t\tgoto tr162",
  "\t\t\t\t}",
  "\t\t\tcase (m.data)[(m.p)] > 90:",
  "\t\t\t\tif 97 <= (m.data)[(m.p)] && (m.data)[(m.p)] <= 122 {",
  "\t\t\t\t\tgoto tr162",
  "\t\t\t\t}",
  "\t\t\tdefault:",
  "\t\t\t\tgoto tr162",
  "\t\t\t}",
  "\t\t\tgoto tr106",
  "\t\tcase 141:",
  "\t\t\tswitch (m.data)[(m.p)] {",
  "\t\t\tcase 45:",
  "\t\t\t\tgoto tr159",
  "\t\t\tcase 58:",
  "\t\t\t\tgoto tr168",
  "\t\t\t}",
  "\t\t\tswitch {",
  "\t\t\tcase (m.data)[(m.p)] < 65:",
  "\t\t\t\tif 48 <= (m.data)[(m.p)] && (m.data)[(m.p)] <= 57 {",
  "\t\t\t\t\tgoto tr160",
  "\t\t\t\t}",
  "\t\t\tcase (m.data)[(m.p)] > 90:",
  "\t\t\t\tif 97 <= (m.data)[(m.p)] && (m.data)[(m.p)] <= 122 {",
  "\t\t\t\t\tgoto tr160",
  "\t\t\t\t}",
  "\t\t\tdefault:",
  "\t\t\t\tgoto tr160",
  "\t\t\t}",
  "\t\t\tgoto tr106",
  "\t\tcase 142:",
  "\t\t\tswitch (m.data)[(m.p)] {",
  "\t\t\tcase 45:",
  "\t\t\t\tgoto tr157",
  "\t\t\tcase 58:",
  "\t\t\t\tgoto tr168",
  "\t\t\t}",
  "\t\t\tswitch {",
  "\t\t\tcase (m.data)[(m.p)] < 65:",
  "\t\t\t\tif 48 <= (m.data)[(m.p)] && (m.data)[(m.p)] <= 57 {",
  "\t\t\t\t\tgoto tr158",
  "\t\t\t\t}",
  "\t\t\tcase (m.data)[(m.p)] > 90:",
  "\t\t\t\tif 97 <= (m.data)[(m.p)] && (m.data)[(m.p)] <= 122 {",
  "\t\t\t\t\tgoto tr158",
  "\t\t\t\t}"]

/-- machine.go:2801-3000 -/
def machineGo14 : List String := [
  "\t\t\tdefault:",
  "\t\t\t\tgoto tr158",
  "\t\t\t}",
  "\t\t\tgoto tr106",
  "\t\tcase 143:",
  "\t\t\tswitch (m.data)[(m.p)] {",
  "\t\t\tcase 45:",
  "\t\t\t\tgoto tr155",
  "\t\t\tcase 58:",
  "\t\t\t\tgoto tr168",
  "\t\t\t}",
  "\t\t\tswitch {",
  "\t\t\tcase (m.data)[(m.p)] < 65:",
  "\t\t\t\tif 48 <= (m.data)[(m.p)] && (m.data)[(m.p)] <= 57 {",
  "\t\t\t\t\tgoto tr156",
  "\t\t\t\t}",
  "\t\t\tcase (m.data)[(m.p)] > 90:",
  "\t\t\t\tif 97 <= (m.data)[(m.p)] && (m.data)[(m.p)] <= 122 {",
  "\t\t\t\t\tgoto tr156",
  "\t\t\t\t}",
  "\t\t\tdefault:",
  "\t\t\t\tgoto tr156",
  "\t\t\t}",
  "\t\t\tgoto tr106",
  "\t\tcase 144:",
  "\t\t\tswitch (m.data)[(m.p)] {",
  "\t\t\tcase 45:",
  "\t\t\t\tgoto tr153",
  "\t\t\tcase 58:",
  "\t\t\t\tgoto tr168",
  "\t\t\t}",
  "\t\t\tswitch {",
  "\t\t\tcase (m.data)[(m.p)] < 65:",
  "\t\t\t\tif 48 <= (m.data)[(m.p)] && (m.data)[(m.p)] <= 57 {",
  "\t\t\t\t\tgoto tr154",
  "\t\t\t\t}",
  "\t\t\tcase (m.data)[(m.p)] > 90:",
  "\t\t\t\tif 97 <= (m.data)[(m.p)] && (m.data)[(m.p)] <= 122 {",
  "\t\t\t\t\tgoto tr154",
  "\t\t\t\t}",
  "\t\t\tdefault:",
  "\t\t\t\tgoto tr154",
  "\t\t\t}",
  "\t\t\tgoto tr106",
  "\t\tcase 145:",
  "\t\t\tswitch (m.data)[(m.p)] {",
  "\t\t\tcase 45:",
  "\t\t\t\tgoto tr151",
  "\t\t\tcase 58:",
  "\t\t\t\tgoto tr168",
  "\t\t\t}",
  "\t\t\tswitch {",
  "\t\t\tcase (m.data)[(m.p)] < 65:",
  "\t\t\t\tif 48 <= (m.data)[(m.p)] && (m.data)[(m.p)] <= 57 {",
  "\t\t\t\t\tgoto tr152",
  "\t\t\t\t}",
  "\t\t\tcase (m.data)[(m.p)] > 90:",
  "\t\t\t\tif 97 <= (m.data)[(m.p)] && (m.data)[(m.p)] <= 122 {",
  "\t\t\t\t\tgoto tr152",
  "\t\t\t\t}",
  "\t\t\tdefault:",
  "\t\t\t\tgoto tr152",
  "\t\t\t}",
  "\t\t\tgoto tr106",
  "\t\tcase 146:",
  "\t\t\tswitch (m.data)[(m.p)] {",
  "\t\t\tcase 45:",
  "\t\t\t\tgoto tr149",
  "\t\t\tcase 58:",
  "\t\t\t\tgoto tr168",
  "\t\t\t}",
  "\t\t\tswitch {",
  "\t\t\tcase (m.data)[(m.p)] < 65:",
  "\t\t\t\tif 48 <= (m.data)[(m.p)] && (m.data)[(m.p)] <= 57 {",
  "\t\t\t\t\tgoto tr150",
  "\t\t\t\t}",
  "\t\t\tcase (m.data)[(m.p)] > 90:",
  "\t\t\t\tif 97 <= (m.data)[(m.p)] && (m.data)[(m.p)] <= 122 {",
  "\t\t\t\t\tgoto tr150",
  "\t\t\t\t}",
  "\t\t\tdefault:",
  "\t\t\t\tgoto tr150",
  "\t\t\t}",
  "\t\t\tgoto tr106",
  "\t\tcase 147:",
  "\t\t\tswitch (m.data)[(m.p)] {",
  "\t\t\tcase 45:",
  "\t\t\t\tgoto tr147",
  "\t\t\tcase 58:",
  "\t\t\t\tgoto tr168",
  "\t\t\t}",
  "\t\t\tswitch {",
  "\t\t\tcase (m.data)[(m.p)] < 65:",
  "\t\t\t\tif 48 <= (m.data)[(m.p)] && (m.data)[(m.p)] <= 57 {",
  "\t\t\t\t\tgoto tr148",
  "\t\t\t\t}",
  "\t\t\tcase (m.data)[(m.p)] > 90:",
  "\t\t\t\tif 97 <= (m.data)[(m.p)] && (m.data)[(m.p)] <= 122 {",
  "\t\t\t\t\tgoto tr148",
  "\t\t\t\t}",
  "\t\t\tdefault:",
  "\t\t\t\tgoto tr148",
  "\t\t\t}",
  "\t\t\tgoto tr106",
  "\t\tcase 148:",
  "\t\t\tswitch (m.data)[(m.p)] {",
  "\t\t\tcase 45:",
  "\t\t\t\tgoto tr145",
  "\t\t\tcase 58:",
  "\t\t\t\tgoto tr168",
  "\t\t\t}",
  "\t\t\tswitch {",
  "\t\t\tcase (m.data)[(m.p)] < 65:",
  "\t\t\t\tif 48 <= (m.data)[(m.p)] && (m.data)[(m.p)] <= 57 {",
  "\t\t\t\t\tgoto tr146",
  "\t\t\t\t}",
  "\t\t\tcase (m.data)[(m.p)] > 90:",
  "\t\t\t\tif 97 <= (m.data)[(m.p)] && (m.data)[(m.p)] <= 122 {",
  "\t\t\t\t\tgoto tr146",
  "\t\t\t\t}",
  "\t\t\tdefault:",
  "\t\t\t\tgoto tr146",
  "\t\t\t}",
  "\t\t\tgoto tr106",
  "\t\tcase 149:",
  "\t\t\tswitch (m.data)[(m.p)] {",
  "\t\t\tcase 45:",
  "\t\t\t\tgoto tr143",
  "\t\t\tcase 58:",
  "\t\t\t\tgoto tr168",
  "\t\t\t}",
  "\t\t\tswitch {",
  "\t\t\tcase (m.data)[(m.p)] < 65:",
  "\t\t\t\tif 48 <= (m.data)[(m.p)] && (m.data)[(m.p)] <= 57 {",
  "\t\t\t\t\tgoto tr144",
  "\t\t\t\t}",
  "\t\t\tcase (m.data)[(m.p)] > 90:",
  "\t\t\t\tif 97 <= (m.data)[(m.p)] && (m.data)[(m.p)] <= 122 {",
  "\t\t\t\t\tgoto tr144",
  "\t\t\t\t}",
  "\t\t\tdefault:",
  "\t\t\t\tgoto tr144",
  "\t\t\t}",
  "\t\t\tgoto tr106",
  "\t\tcase 150:",
  "\t\t\tswitch (m.data)[(m.p)] {",
  "\t\t\tcase 45:",
  "\t\t\t\tgoto tr141",
  "\t\t\tcase 58:",
  "\t\t\t\tgoto tr168",
  "\t\t\t}",
  "\t\t\tswitch {",
  "\t\t\tcase (m.data)[(m.p)] < 65:",
  "\t\t\t\tif 48 <= (m.data)[(m.p)] && (m.data)[(m.p)] <= 57 {",
  "\t\t\t\t\tgoto tr142",
  "\t\t\t\t}",
  "\t\t\tcase (m.data)[(m.p)] > 90:",
  "\t\t\t\tif 97 <= (m.data)[(m.p)] && (m.data)[(m.p)] <= 122 {",
  "\t\t\t\t\tgoto tr142",
  "\t\t\t\t}",
  "\t\t\tdefault:",
  "\t\t\t\tgoto tr142",
  "\t\t\t}",
  "\t\t\tgoto tr106",
  "\t\tcase 151:",
  "\t\t\tswitch (m.data)[(m.p)] {",
  "\t\t\tcase 45:",
  "\t\t\t\tgoto tr139",
  "\t\t\tcase 58:",
  "\t\t\t\tgoto tr168",
  "\t\t\t}",
  "\t\t\tswitch {",
  "\t\t\tcase (m.data)[(m.p)] < 65:",
  "\t\t\t\tif 48 <= (m.data)[(m.p)] && (m.data)[(m.p)] <= 57 {",
  "\t\t\t\t\tgoto tr140",
  "\t\t\t\t}",
  "\t\t\tcase (m.data)[(m.p)] > 90:",
  "\t\t\t\tif 97 <= (m.data)[(m.p)] && (m.data)[(m.p)] <= 122 {",
  "\t\t\t\t\tgoto tr140",
  "\t\t\t\t}",
  "\t\t\tdefault:",
  "\t\t\t\tgoto tr140",
  "\t\t\t}",
  "\t\t\tgoto tr106",
  "\t\tcase 152:",
  "\t\t\tswitch (m.data)[(m.p)] {",
  "\t\t\tcase 45:",
  "\t\t\t\tgoto tr137",
  "\t\t\tcase 58:",
  "\t\t\t\tgoto tr168",
  "\t\t\t}",
  "\t\t\tswitch {",
  "\t\t\tcase (m.data)[(m.p)] < 65:",
  "\t\t\t\tif 48 <= (m.data)[(m.p)] && (m.data)[(m.p)] <= 57 {",
  "\t\t\t\t\tgoto tr138",
  "\t\t\t\t}",
  "\t\t\tcase (m.data)[(m.p)] > 90:",
  "\t\t\t\tif 97 <= (m.data)[(m.p)] && (m.data)[(m.p)] <= 122 {",
  "\t\t\t\t\tgoto tr138",
  "\t\t\t\t}"]

/-- machine.go:3001-3200 -/
def machineGo15 : List String := [
  "\t\t\tdefault:",
  "\t\t\t\tgoto tr138",
  "\t\t\t}",
  "\t\t\tgoto tr106",
  "\t\tcase 153:",
  "\t\t\tswitch (m.data)[(m.p)] {",
  "\t\t\tcase 45:",
  "\t\t\t\tgoto tr135",
  "\t\t\tcase 58:",
  "\t\t\t\tgoto tr168",
  "\t\t\t}",
  "\t\t\tswitch {",
  "\t\t\tcase (m.data)[(m.p)] < 65:",
  "\t\t\t\tif 48 <= (m.data)[(m.p)] && (m.data)[(m.p)] <= 57 {",
  "\t\t\t\t\tgoto tr136",
  "\t\t\t\t}",
  "\t\t\tcase (m.data)[(m.p)] > 90:",
  "\t\t\t\tif 97 <= (m.data)[(m.p)] && (m.data)[(m.p)] <= 122 {",
  "\t\t\t\t\tgoto tr136",
  "\t\t\t\t}",
  "\t\t\tdefault:",
  "\t\t\t\tgoto tr136",
  "\t\t\t}",
  "\t\t\tgoto tr106",
  "\t\tcase 154:",
  "\t\t\tswitch (m.data)[(m.p)] {",
  "\t\t\tcase 45:",
  "\t\t\t\tgoto tr133",
  "\t\t\tcase 58:",
  "\t\t\t\tgoto tr168",
  "\t\t\t}",
  "\t\t\tswitch {",
  "\t\t\tcase (m.data)[(m.p)] < 65:",
  "\t\t\t\tif 48 <= (m.data)[(m.p)] && (m.data)[(m.p)] <= 57 {",
  "\t\t\t\t\tgoto tr134",
  "\t\t\t\t}",
  "\t\t\tcase (m.data)[(m.p)] > 90:",
  "\t\t\t\tif 97 <= (m.data)[(m.p)] && (m.data)[(m.p)] <= 122 {",
  "\t\t\t\t\tgoto tr134",
  "\t\t\t\t}",
  "\t\t\tdefault:",
  "\t\t\t\tgoto tr134",
  "\t\t\t}",
  "\t\t\tgoto tr106",
  "\t\tcase 155:",
  "\t\t\tswitch (m.data)[(m.p)] {",
  "\t\t\tcase 45:",
  "\t\t\t\tgoto tr131",
  "\t\t\tcase 58:",
  "\t\t\t\tgoto tr168",
  "\t\t\t}",
  "\t\t\tswitch {",
  "\t\t\tcase (m.data)[(m.p)] < 65:",
  "\t\t\t\tif 48 <= (m.data)[(m.p)] && (m.data)[(m.p)] <= 57 {",
  "\t\t\t\t\tgoto tr132",
  "\t\t\t\t}",
  "\t\t\tcase (m.data)[(m.p)] > 90:",
  "\t\t\t\tif 97 <= (m.data)[(m.p)] && (m.data)[(m.p)] <= 122 {",
  "\t\t\t\t\tgoto tr132",
  "\t\t\t\t}",
  "\t\t\tdefault:",
  "\t\t\t\tgoto tr132",
  "\t\t\t}",
  "\t\t\tgoto tr106",
  "\t\tcase 156:",
  "\t\t\tswitch (m.data)[(m.p)] {",
  "\t\t\tcase 45:",
  "\t\t\t\tgoto tr129",
  "\t\t\tcase 58:",
  "\t\t\t\tgoto tr168",
  "\t\t\t}",
  "\t\t\tswitch {",
  "\t\t\tcase (m.data)[(m.p)] < 65:",
  "\t\t\t\tif 48 <= (m.data)[(m.p)] && (m.data)[(m.p)] <= 57 {",
  "\t\t\t\t\tgoto tr130",
  "\t\t\t\t}",
  "\t\t\tcase (m.data)[(m.p)] > 90:",
  "\t\t\t\tif 97 <= (m.data)[(m.p)] && (m.data)[(m.p)] <= 122 {",
  "\t\t\t\t\tgoto tr130",
  "\t\t\t\t}",
  "\t\t\tdefault:",
  "\t\t\t\tgoto tr130",
  "\t\t\t}",
  "\t\t\tgoto tr106",
  "\t\tcase 157:",
  "\t\t\tswitch (m.data)[(m.p)] {",
  "\t\t\tcase 45:",
  "\t\t\t\tgoto tr127",
  "\t\t\tcase 58:",
  "\t\t\t\tgoto tr168",
  "\t\t\t}",
  "\t\t\tswitch {",
  "\t\t\tcase (m.data)[(m.p)] < 65:",
  "\t\t\t\tif 48 <= (m.data)[(m.p)] && (m.data)[(m.p)] <= 57 {",
  "\t\t\t\t\tgoto tr128",
  "\t\t\t\t}",
  "\t\t\tcase (m.data)[(m.p)] > 90:",
  "\t\t\t\tif 97 <= (m.data)[(m.p)] && (m.data)[(m.p)] <= 122 {",
  "\t\t\t\t\tgoto tr128",
  "\t\t\t\t}",
  "\t\t\tdefault:",
  "\t\t\t\tgoto tr128",
  "\t\t\t}",
  "\t\t\tgoto tr106",
  "\t\tcase 158:",
  "\t\t\tswitch (m.data)[(m.p)] {",
  "\t\t\tcase 45:",
  "\t\t\t\tgoto tr125",
  "\t\t\tcase 58:",
  "\t\t\t\tgoto tr168",
  "\t\t\t}",
  "\t\t\tswitch {",
  "\t\t\tcase (m.data)[(m.p)] < 65:",
  "\t\t\t\tif 48 <= (m.data)[(m.p)] && (m.data)[(m.p)] <= 57 {",
  "\t\t\t\t\tgoto tr126",
  "\t\t\t\t}",
  "\t\t\tcase (m.data)[(m.p)] > 90:",
  "\t\t\t\tif 97 <= (m.data)[(m.p)] && (m.data)[(m.p)] <= 122 {",
  "\t\t\t\t\tgoto tr126",
  "\t\t\t\t}",
  "\t\t\tdefault:",
  "\t\t\t\tgoto tr126",
  "\t\t\t}",
  "\t\t\tgoto tr106",
  "\t\tcase 159:",
  "\t\t\tswitch (m.data)[(m.p)] {",
  "\t\t\tcase 45:",
  "\t\t\t\tgoto tr123",
  "\t\t\tcase 58:",
  "\t\t\t\tgoto tr168",
  "\t\t\t}",
  "\t\t\tswitch {",
  "\t\t\tcase (m.data)[(m.p)] < 65:",
  "\t\t\t\tif 48 <= (m.data)[(m.p)] && (m.data)[(m.p)] <= 57 {",
  "\t\t\t\t\tgoto tr124",
  "\t\t\t\t}",
  "\t\t\tcase (m.data)[(m.p)] > 90:",
  "\t\t\t\tif 97 <= (m.data)[(m.p)] && (m.data)[(m.p)] <= 122 {",
  "\t\t\t\t\tgoto tr124",
  "\t\t\t\t}",
  "\t\t\tdefault:",
  "\t\t\t\tgoto tr124",
  "\t\t\t}",
  "\t\t\tgoto tr106",
  "\t\tcase 160:",
  "\t\t\tswitch (m.data)[(m.p)] {",
  "\t\t\tcase 45:",
  "\t\t\t\tgoto tr121",
  "\t\t\tcase 58:",
  "\t\t\t\tgoto tr168",
  "\t\t\t}",
  "\t\t\tswitch {",
  "\t\t\tcase (m.data)[(m.p)] < 65:",
  "\t\t\t\tif 48 <= (m.data)[(m.p)] && (m.data)[(m.p)] <= 57 {",
  "\t\t\t\t\tgoto tr122",
  "\t\t\t\t}",
  "\t\t\tcase (m.data)[(m.p)] > 90:",
  "\t\t\t\tif 97 <= (m.data)[(m.p)] && (m.data)[(m.p)] <= 122 {",
  "\t\t\t\t\tgoto tr122",
  "\t\t\t\t}",
  "\t\t\tdefault:",
  "\t\t\t\tgoto tr122",
  "\t\t\t}",
  "\t\t\tgoto tr106",
  "\t\tcase 161:",
  "\t\t\tswitch (m.data)[(m.p)] {",
  "\t\t\tcase 45:",
  "\t\t\t\tgoto tr119",
  "\t\t\tcase 58:",
  "\t\t\t\tgoto tr168",
  "\t\t\t}",
  "\t\t\tswitch {",
  "\t\t\tcase (m.data)[(m.p)] < 65:",
  "\t\t\t\tif 48 <= (m.data)[(m.p)] && (m.data)[(m.p)] <= 57 {",
  "\t\t\t\t\tgoto tr120",
  "\t\t\t\t}",
  "\t\t\tcase (m.data)[(m.p)] > 90:",
  "\t\t\t\tif 97 <= (m.data)[(m.p)] && (m.data)[(m.p)] <= 122 {",
  "\t\t\t\t\tgoto tr120",
  "\t\t\t\t}",
  "\t\t\tdefault:",
  "\t\t\t\tgoto tr120",
  "\t\t\t}",
  "\t\t\tgoto tr106",
  "\t\tcase 162:",
  "\t\t\tswitch (m.data)[(m.p)] {",
  "\t\t\tcase 45:",
  "\t\t\t\tgoto tr117",
  "\t\t\tcase 58:",
  "\t\t\t\tgoto tr168",
  "\t\t\t}",
  "\t\t\tswitch {",
  "\t\t\tcase (m.data)[(m.p)] < 65:",
  "\t\t\t\tif 48 <= (m.data)[(m.p)] && (m.data)[(m.p)] <= 57 {",
  "\t\t\t\t\tgoto tr118",
  "\t\t\t\t}",
  "\t\t\tcase (m.data)[(m.p)] > 90:",
  "\t\t\t\tif 97 <= (m.data)[(m.p)] && (m.data)[(m.p)] <= 122 {",
  "\t\t\t\t\tgoto tr118",
  "\t\t\t\t}"]

/-- machine.go:3201-3400 -/
def machineGo16 : List String := [
  "\t\t\tdefault:",
  "\t\t\t\tgoto tr118",
  "\t\t\t}",
  "\t\t\tgoto tr106",
  "\t\tcase 163:",
  "\t\t\tswitch (m.data)[(m.p)] {",
  "\t\t\tcase 45:",
  "\t\t\t\tgoto tr115",
  "\t\t\tcase 58:",
  "\t\t\t\tgoto tr168",
  "\t\t\t}",
  "\t\t\tswitch {",
  "\t\t\tcase (m.data)[(m.p)] < 65:",
  "\t\t\t\tif 48 <= (m.data)[(m.p)] && (m.data)[(m.p)] <= 57 {",
  "\t\t\t\t\tgoto tr116",
  "\t\t\t\t}",
  "\t\t\tcase (m.data)[(m.p)] > 90:",
  "\t\t\t\tif 97 <= (m.data)[(m.p)] && (m.data)[(m.p)] <= 122 {",
  "\t\t\t\t\tgoto tr116",
  "\t\t\t\t}",
  "\t\t\tdefault:",
  "\t\t\t\tgoto tr116",
  "\t\t\t}",
  "\t\t\tgoto tr106",
  "\t\tcase 164:",
  "\t\t\tswitch (m.data)[(m.p)] {",
  "\t\t\tcase 45:",
  "\t\t\t\tgoto tr113",
  "\t\t\tcase 58:",
  "\t\t\t\tgoto tr168",
  "\t\t\t}",
  "\t\t\tswitch {",
  "\t\t\tcase (m.data)[(m.p)] < 65:",
  "\t\t\t\tif 48 <= (m.data)[(m.p)] && (m.data)[(m.p)] <= 57 {",
  "\t\t\t\t\tgoto tr114",
  "\t\t\t\t}",
  "\t\t\tcase (m.data)[(m.p)] > 90:",
  "\t\t\t\tif 97 <= (m.data)[(m.p)] && (m.data)[(m.p)] <= 122 {",
  "\t\t\t\t\tgoto tr114",
  "\t\t\t\t}",
  "\t\t\tdefault:",
  "\t\t\t\tgoto tr114",
  "\t\t\t}",
  "\t\t\tgoto tr106",
  "\t\tcase 165:",
  "\t\t\tswitch (m.data)[(m.p)] {",
  "\t\t\tcase 45:",
  "\t\t\t\tgoto tr111",
  "\t\t\tcase 58:",
  "\t\t\t\tgoto tr168",
  "\t\t\t}",
  "\t\t\tswitch {",
  "\t\t\tcase (m.data)[(m.p)] < 65:",
  "\t\t\t\tif 48 <= (m.data)[(m.p)] && (m.data)[(m.p)] <= 57 {",
  "\t\t\t\t\tgoto tr112",
  "\t\t\t\t}",
  "\t\t\tcase (m.data)[(m.p)] > 90:",
  "\t\t\t\tif 97 <= (m.data)[(m.p)] && (m.data)[(m.p)] <= 122 {",
  "\t\t\t\t\tgoto tr112",
  "\t\t\t\t}",
  "\t\t\tdefault:",
  "\t\t\t\tgoto tr112",
  "\t\t\t}",
  "\t\t\tgoto tr106",
  "\t\tcase 166:",
  "\t\t\tswitch (m.data)[(m.p)] {",
  "\t\t\tcase 45:",
  "\t\t\t\tgoto tr109",
  "\t\t\tcase 58:",
  "\t\t\t\tgoto tr168",
  "\t\t\t}",
  "\t\t\tswitch {",
  "\t\t\tcase (m.data)[(m.p)] < 65:",
  "\t\t\t\tif 48 <= (m.data)[(m.p)] && (m.data)[(m.p)] <= 57 {",
  "\t\t\t\t\tgoto tr110",
  "\t\t\t\t}",
  "\t\t\tcase (m.data)[(m.p)] > 90:",
  "\t\t\t\tif 97 <= (m.data)[(m.p)] && (m.data)[(m.p)] <= 122 {",
  "\t\t\t\t\tgoto tr110",
  "\t\t\t\t}",
  "\t\t\tdefault:",
  "\t\t\t\tgoto tr110",
  "\t\t\t}",
  "\t\t\tgoto tr106",
  "\t\tcase 167:",
  "\t\t\tswitch (m.data)[(m.p)] {",
  "\t\t\tcase 45:",
  "\t\t\t\tgoto tr107",
  "\t\t\tcase 82:",
  "\t\t\t\tgoto tr208",
  "\t\t\tcase 114:",
  "\t\t\t\tgoto tr208",
  "\t\t\t}",
  "\t\t\tswitch {",
  "\t\t\tcase (m.data)[(m.p)] < 65:",
  "\t\t\t\tif 48 <= (m.data)[(m.p)] && (m.data)[(m.p)] <= 57 {",
  "\t\t\t\t\tgoto tr108",
  "\t\t\t\t}",
  "\t\t\tcase (m.data)[(m.p)] > 90:",
  "\t\t\t\tif 97 <= (m.data)[(m.p)] && (m.data)[(m.p)] <= 122 {",
  "\t\t\t\t\tgoto tr108",
  "\t\t\t\t}",
  "\t\t\tdefault:",
  "\t\t\t\tgoto tr108",
  "\t\t\t}",
  "\t\t\tgoto tr103",
  "\t\tcase 168:",
  "\t\t\tswitch (m.data)[(m.p)] {",
  "\t\t\tcase 45:",
  "\t\t\t\tgoto tr109",
  "\t\t\tcase 58:",
  "\t\t\t\tgoto tr168",
  "\t\t\tcase 78:",
  "\t\t\t\tgoto tr209",
  "\t\t\tcase 110:",
  "\t\t\t\tgoto tr209",
  "\t\t\t}",
  "\t\t\tswitch {",
  "\t\t\tcase (m.data)[(m.p)] < 65:",
  "\t\t\t\tif 48 <= (m.data)[(m.p)] && (m.data)[(m.p)] <= 57 {",
  "\t\t\t\t\tgoto tr110",
  "\t\t\t\t}",
  "\t\t\tcase (m.data)[(m.p)] > 90:",
  "\t\t\t\tif 97 <= (m.data)[(m.p)] && (m.data)[(m.p)] <= 122 {",
  "\t\t\t\t\tgoto tr110",
  "\t\t\t\t}",
  "\t\t\tdefault:",
  "\t\t\t\tgoto tr110",
  "\t\t\t}",
  "\t\t\tgoto tr103",
  "\t\tcase 169:",
  "\t\t\tswitch (m.data)[(m.p)] {",
  "\t\t\tcase 45:",
  "\t\t\t\tgoto tr210",
  "\t\t\tcase 58:",
  "\t\t\t\tgoto tr168",
  "\t\t\t}",
  "\t\t\tswitch {",
  "\t\t\tcase (m.data)[(m.p)] < 65:",
  "\t\t\t\tif 48 <= (m.data)[(m.p)] && (m.data)[(m.p)] <= 57 {",
  "\t\t\t\t\tgoto tr112",
  "\t\t\t\t}",
  "\t\t\tcase (m.data)[(m.p)] > 90:",
  "\t\t\t\tif 97 <= (m.data)[(m.p)] && (m.data)[(m.p)] <= 122 {",
  "\t\t\t\t\tgoto tr112",
  "\t\t\t\t}",
  "\t\t\tdefault:",
  "\t\t\t\tgoto tr112",
  "\t\t\t}",
  "\t\t\tgoto tr106",
  "\t\tcase 170:",
  "\t\t\tswitch (m.data)[(m.p)] {",
  "\t\t\tcase 45:",
  "\t\t\t\tgoto tr113",
  "\t\t\tcase 48:",
  "\t\t\t\tgoto tr211",
  "\t\t\t}",
  "\t\t\tswitch {",
  "\t\t\tcase (m.data)[(m.p)] < 65:",
  "\t\t\t\tif 49 <= (m.data)[(m.p)] && (m.data)[(m.p)] <= 57 {",
  "\t\t\t\t\tgoto tr114",
  "\t\t\t\t}",
  "\t\t\tcase (m.data)[(m.p)] > 90:",
  "\t\t\t\tif 97 <= (m.data)[(m.p)] && (m.data)[(m.p)] <= 122 {",
  "\t\t\t\t\tgoto tr211",
  "\t\t\t\t}",
  "\t\t\tdefault:",
  "\t\t\t\tgoto tr211",
  "\t\t\t}",
  "\t\t\tgoto tr106",
  "\t\tcase 171:",
  "\t\t\tif (m.data)[(m.p)] == 45 {",
  "\t\t\t\tgoto tr115",
  "\t\t\t}",
  "\t\t\tswitch {",
  "\t\t\tcase (m.data)[(m.p)] < 65:",
  "\t\t\t\tif 48 <= (m.data)[(m.p)] && (m.data)[(m.p)] <= 57 {",
  "\t\t\t\t\tgoto tr116",
  "\t\t\t\t}",
  "\t\t\tcase (m.data)[(m.p)] > 90:",
  "\t\t\t\tif 97 <= (m.data)[(m.p)] && (m.data)[(m.p)] <= 122 {",
  "\t\t\t\t\tgoto tr116",
  "\t\t\t\t}",
  "\t\t\tdefault:",
  "\t\t\t\tgoto tr116",
  "\t\t\t}",
  "\t\t\tgoto tr106",
  "\t\tcase 193:",
  "\t\t\tswitch (m.data)[(m.p)] {",
  "\t\t\tcase 10:",
  "\t\t\t\tgoto tr183",
  "\t\t\tcase 13:",
  "\t\t\t\tgoto tr183",
  "\t\t\t}",
  "\t\t\tgoto tr249",
  "\t\t}",
  "",
  "\ttr183:",
  "\t\tm.cs = 0",
  "\t\tgoto _again"]

/-- machine.go:3401-3600 -/
def machineGo17 : List String := [
  "\ttr0:",
  "\t\tm.cs = 0",
  "\t\tgoto f0",
  "\ttr5:",
  "\t\tm.cs = 0",
  "\t\tgoto f3",
  "\ttr8:",
  "\t\tm.cs = 0",
  "\t\tgoto f5",
  "\ttr41:",
  "\t\tm.cs = 0",
  "\t\tgoto f7",
  "\ttr44:",
  "\t\tm.cs = 0",
  "\t\tgoto f8",
  "\ttr51:",
  "\t\tm.cs = 0",
  "\t\tgoto f10",
  "\ttr56:",
  "\t\tm.cs = 0",
  "\t\tgoto f11",
  "\ttr74:",
  "\t\tm.cs = 0",
  "\t\tgoto f13",
  "\ttr81:",
  "\t\tm.cs = 0",
  "\t\tgoto f15",
  "\ttr83:",
  "\t\tm.cs = 0",
  "\t\tgoto f17",
  "\ttr86:",
  "\t\tm.cs = 0",
  "\t\tgoto f19",
  "\ttr103:",
  "\t\tm.cs = 0",
  "\t\tgoto f20",
  "\ttr106:",
  "\t\tm.cs = 0",
  "\t\tgoto f21",
  "\ttr169:",
  "\t\tm.cs = 0",
  "\t\tgoto f22",
  "\ttr172:",
  "\t\tm.cs = 0",
  "\t\tgoto f23",
  "\ttr177:",
  "\t\tm.cs = 0",
  "\t\tgoto f24",
  "\ttr185:",
  "\t\tm.cs = 0",
  "\t\tgoto f25",
  "\ttr189:",
  "\t\tm.cs = 0",
  "\t\tgoto f27",
  "\ttr194:",
  "\t\tm.cs = 0",
  "\t\tgoto f28",
  "\ttr199:",
  "\t\tm.cs = 0",
  "\t\tgoto f29",
  "\ttr203:",
  "\t\tm.cs = 0",
  "\t\tgoto f30",
  "\ttr236:",
  "\t\tm.cs = 0",
  "\t\tgoto f46",
  "\ttr1:",
  "\t\tm.cs = 2",
  "\t\tgoto f1",
  "\ttr2:",
  "\t\tm.cs = 3",
  "\t\tgoto _again",
  "\ttr3:",
  "\t\tm.cs = 4",
  "\t\tgoto _again",
  "\ttr4:",
  "\t\tm.cs = 5",
  "\t\tgoto f2",
  "\ttr6:",
  "\t\tm.cs = 6",
  "\t\tgoto f4",
  "\ttr9:",
  "\t\tm.cs = 7",
  "\t\tgoto _again",
  "\ttr11:",
  "\t\tm.cs = 8",
  "\t\tgoto _again",
  "\ttr12:",
  "\t\tm.cs = 9",
  "\t\tgoto _again",
  "\ttr13:",
  "\t\tm.cs = 10",
  "\t\tgoto _again",
  "\ttr14:",
  "\t\tm.cs = 11",
  "\t\tgoto _again",
  "\ttr15:",
  "\t\tm.cs = 12",
  "\t\tgoto _again",
  "\ttr16:",
  "\t\tm.cs = 13",
  "\t\tgoto _again",
  "\ttr17:",
  "\t\tm.cs = 14",
  "\t\tgoto _again",
  "\ttr18:",
  "\t\tm.cs = 15",
  "\t\tgoto _again",
  "\ttr19:",
  "\t\tm.cs = 16",
  "\t\tgoto _again",
  "\ttr20:",
  "\t\tm.cs = 17",
  "\t\tgoto _again",
  "\ttr21:",
  "\t\tm.cs = 18",
  "\t\tgoto _again",
  "\ttr22:",
  "\t\tm.cs = 19",
  "\t\tgoto _again",
  "\ttr23:",
  "\t\tm.cs = 20",
  "\t\tgoto _again",
  "\ttr24:",
  "\t\tm.cs = 21",
  "\t\tgoto _again",
  "\ttr25:",
  "\t\tm.cs = 22",
  "\t\tgoto _again",
  "\ttr26:",
  "\t\tm.cs = 23",
  "\t\tgoto _again",
  "\ttr27:",
  "\t\tm.cs = 24",
  "\t\tgoto _again",
  "\ttr28:",
  "\t\tm.cs = 25",
  "\t\tgoto _again",
  "\ttr29:",
  "\t\tm.cs = 26",
  "\t\tgoto _again",
  "\ttr30:",
  "\t\tm.cs = 27",
  "\t\tgoto _again",
  "\ttr31:",
  "\t\tm.cs = 28",
  "\t\tgoto _again",
  "\ttr32:",
  "\t\tm.cs = 29",
  "\t\tgoto _again",
  "\ttr33:",
  "\t\tm.cs = 30",
  "\t\tgoto _again",
  "\ttr34:",
  "\t\tm.cs = 31",
  "\t\tgoto _again",
  "\ttr35:",
  "\t\tm.cs = 32",
  "\t\tgoto _again",
  "\ttr36:",
  "\t\tm.cs = 33",
  "\t\tgoto _again",
  "\ttr37:",
  "\t\tm.cs = 34",
  "\t\tgoto _again",
  "\ttr38:",
  "\t\tm.cs = 35",
  "\t\tgoto _again",
  "\ttr39:",
  "\t\tm.cs = 36",
  "\t\tgoto _again",
  "\ttr40:",
  "\t\tm.cs = 37",
  "\t\tgoto _again",
  "\ttr10:",
  "\t\tm.cs = 38",
  "\t\tgoto f6",
  "\ttr213:",
  "\t\tm.cs = 39",
  "\t\tgoto _again",
  "\ttr43:",
  "\t\tm.cs = 39",
  "\t\tgoto f4",
  "\ttr45:",
  "\t\tm.cs = 40",
  "\t\tgoto _again",
  "\ttr46:",
  "\t\tm.cs = 40",
  "\t\tgoto f9",
  "\ttr7:",
  "\t\tm.cs = 41",
  "\t\tgoto f1",
  "\ttr49:",
  "\t\tm.cs = 42",
  "\t\tgoto _again",
  "\ttr50:",
  "\t\tm.cs = 43",
  "\t\tgoto _again",
  "\ttr52:",
  "\t\tm.cs = 45"]

/-- machine.go:3601-3800 -/
def machineGo18 : List String := [
  "\t\tgoto f1",
  "\ttr53:",
  "\t\tm.cs = 46",
  "\t\tgoto _again",
  "\ttr54:",
  "\t\tm.cs = 47",
  "\t\tgoto _again",
  "\ttr55:",
  "\t\tm.cs = 48",
  "\t\tgoto f2",
  "\ttr57:",
  "\t\tm.cs = 49",
  "\t\tgoto f4",
  "\ttr58:",
  "\t\tm.cs = 50",
  "\t\tgoto _again",
  "\ttr59:",
  "\t\tm.cs = 51",
  "\t\tgoto _again",
  "\ttr60:",
  "\t\tm.cs = 52",
  "\t\tgoto _again",
  "\ttr61:",
  "\t\tm.cs = 53",
  "\t\tgoto _again",
  "\ttr62:",
  "\t\tm.cs = 54",
  "\t\tgoto _again",
  "\ttr63:",
  "\t\tm.cs = 55",
  "\t\tgoto _again",
  "\ttr64:",
  "\t\tm.cs = 56",
  "\t\tgoto _again",
  "\ttr65:",
  "\t\tm.cs = 57",
  "\t\tgoto _again",
  "\ttr66:",
  "\t\tm.cs = 58",
  "\t\tgoto _again",
  "\ttr67:",
  "\t\tm.cs = 59",
  "\t\tgoto _again",
  "\ttr68:",
  "\t\tm.cs = 60",
  "\t\tgoto _again",
  "\ttr69:",
  "\t\tm.cs = 61",
  "\t\tgoto _again",
  "\ttr70:",
  "\t\tm.cs = 62",
  "\t\tgoto _again",
  "\ttr71:",
  "\t\tm.cs = 63",
  "\t\tgoto _again",
  "\ttr72:",
  "\t\tm.cs = 64",
  "\t\tgoto _again",
  "\ttr73:",
  "\t\tm.cs = 65",
  "\t\tgoto f12",
  "\ttr75:",
  "\t\tm.cs = 66",
  "\t\tgoto f4",
  "\ttr78:",
  "\t\tm.cs = 67",
  "\t\tgoto _again",
  "\ttr79:",
  "\t\tm.cs = 68",
  "\t\tgoto _again",
  "\ttr80:",
  "\t\tm.cs = 69",
  "\t\tgoto f14",
  "\ttr215:",
  "\t\tm.cs = 70",
  "\t\tgoto f35",
  "\ttr217:",
  "\t\tm.cs = 71",
  "\t\tgoto _again",
  "\ttr85:",
  "\t\tm.cs = 71",
  "\t\tgoto f18",
  "\ttr87:",
  "\t\tm.cs = 72",
  "\t\tgoto _again",
  "\ttr88:",
  "\t\tm.cs = 72",
  "\t\tgoto f9",
  "\ttr76:",
  "\t\tm.cs = 73",
  "\t\tgoto f4",
  "\ttr91:",
  "\t\tm.cs = 74",
  "\t\tgoto _again",
  "\ttr92:",
  "\t\tm.cs = 75",
  "\t\tgoto _again",
  "\ttr93:",
  "\t\tm.cs = 76",
  "\t\tgoto _again",
  "\ttr77:",
  "\t\tm.cs = 77",
  "\t\tgoto f4",
  "\ttr94:",
  "\t\tm.cs = 78",
  "\t\tgoto _again",
  "\ttr95:",
  "\t\tm.cs = 79",
  "\t\tgoto _again",
  "\ttr96:",
  "\t\tm.cs = 80",
  "\t\tgoto _again",
  "\ttr97:",
  "\t\tm.cs = 81",
  "\t\tgoto _again",
  "\ttr98:",
  "\t\tm.cs = 82",
  "\t\tgoto _again",
  "\ttr99:",
  "\t\tm.cs = 84",
  "\t\tgoto f1",
  "\ttr100:",
  "\t\tm.cs = 85",
  "\t\tgoto _again",
  "\ttr101:",
  "\t\tm.cs = 86",
  "\t\tgoto _again",
  "\ttr102:",
  "\t\tm.cs = 87",
  "\t\tgoto f2",
  "\ttr104:",
  "\t\tm.cs = 88",
  "\t\tgoto f4",
  "\ttr107:",
  "\t\tm.cs = 89",
  "\t\tgoto _again",
  "\ttr109:",
  "\t\tm.cs = 90",
  "\t\tgoto _again",
  "\ttr111:",
  "\t\tm.cs = 91",
  "\t\tgoto _again",
  "\ttr113:",
  "\t\tm.cs = 92",
  "\t\tgoto _again",
  "\ttr115:",
  "\t\tm.cs = 93",
  "\t\tgoto _again",
  "\ttr117:",
  "\t\tm.cs = 94",
  "\t\tgoto _again",
  "\ttr119:",
  "\t\tm.cs = 95",
  "\t\tgoto _again",
  "\ttr121:",
  "\t\tm.cs = 96",
  "\t\tgoto _again",
  "\ttr123:",
  "\t\tm.cs = 97",
  "\t\tgoto _again",
  "\ttr125:",
  "\t\tm.cs = 98",
  "\t\tgoto _again",
  "\ttr127:",
  "\t\tm.cs = 99",
  "\t\tgoto _again",
  "\ttr129:",
  "\t\tm.cs = 100",
  "\t\tgoto _again",
  "\ttr131:",
  "\t\tm.cs = 101",
  "\t\tgoto _again",
  "\ttr133:",
  "\t\tm.cs = 102",
  "\t\tgoto _again",
  "\ttr135:",
  "\t\tm.cs = 103",
  "\t\tgoto _again",
  "\ttr137:",
  "\t\tm.cs = 104",
  "\t\tgoto _again",
  "\ttr139:",
  "\t\tm.cs = 105",
  "\t\tgoto _again",
  "\ttr141:",
  "\t\tm.cs = 106",
  "\t\tgoto _again",
  "\ttr143:",
  "\t\tm.cs = 107",
  "\t\tgoto _again",
  "\ttr145:",
  "\t\tm.cs = 108",
  "\t\tgoto _again",
  "\ttr147:",
  "\t\tm.cs = 109",
  "\t\tgoto _again",
  "\ttr149:",
  "\t\tm.cs = 110",
  "\t\tgoto _again",
  "\ttr151:"]

/-- machine.go:3801-4000 -/
def machineGo19 : List String := [
  "\t\tm.cs = 111",
  "\t\tgoto _again",
  "\ttr153:",
  "\t\tm.cs = 112",
  "\t\tgoto _again",
  "\ttr155:",
  "\t\tm.cs = 113",
  "\t\tgoto _again",
  "\ttr157:",
  "\t\tm.cs = 114",
  "\t\tgoto _again",
  "\ttr159:",
  "\t\tm.cs = 115",
  "\t\tgoto _again",
  "\ttr161:",
  "\t\tm.cs = 116",
  "\t\tgoto _again",
  "\ttr163:",
  "\t\tm.cs = 117",
  "\t\tgoto _again",
  "\ttr165:",
  "\t\tm.cs = 118",
  "\t\tgoto _again",
  "\ttr167:",
  "\t\tm.cs = 119",
  "\t\tgoto _again",
  "\ttr168:",
  "\t\tm.cs = 120",
  "\t\tgoto f6",
  "\ttr225:",
  "\t\tm.cs = 121",
  "\t\tgoto _again",
  "\ttr223:",
  "\t\tm.cs = 121",
  "\t\tgoto f4",
  "\ttr173:",
  "\t\tm.cs = 122",
  "\t\tgoto _again",
  "\ttr174:",
  "\t\tm.cs = 122",
  "\t\tgoto f9",
  "\ttr220:",
  "\t\tm.cs = 123",
  "\t\tgoto _again",
  "\ttr171:",
  "\t\tm.cs = 123",
  "\t\tgoto f4",
  "\ttr178:",
  "\t\tm.cs = 124",
  "\t\tgoto _again",
  "\ttr179:",
  "\t\tm.cs = 124",
  "\t\tgoto f9",
  "\ttr221:",
  "\t\tm.cs = 125",
  "\t\tgoto f38",
  "\ttr182:",
  "\t\tm.cs = 126",
  "\t\tgoto _again",
  "\ttr228:",
  "\t\tm.cs = 127",
  "\t\tgoto _again",
  "\ttr187:",
  "\t\tm.cs = 127",
  "\t\tgoto f26",
  "\ttr234:",
  "\t\tm.cs = 127",
  "\t\tgoto f44",
  "\ttr190:",
  "\t\tm.cs = 128",
  "\t\tgoto _again",
  "\ttr191:",
  "\t\tm.cs = 128",
  "\t\tgoto f9",
  "\ttr240:",
  "\t\tm.cs = 129",
  "\t\tgoto _again",
  "\ttr205:",
  "\t\tm.cs = 129",
  "\t\tgoto f31",
  "\ttr245:",
  "\t\tm.cs = 129",
  "\t\tgoto f50",
  "\ttr195:",
  "\t\tm.cs = 130",
  "\t\tgoto _again",
  "\ttr196:",
  "\t\tm.cs = 130",
  "\t\tgoto f9",
  "\ttr237:",
  "\t\tm.cs = 131",
  "\t\tgoto f31",
  "\ttr200:",
  "\t\tm.cs = 132",
  "\t\tgoto _again",
  "\ttr201:",
  "\t\tm.cs = 132",
  "\t\tgoto f9",
  "\ttr188:",
  "\t\tm.cs = 133",
  "\t\tgoto f26",
  "\ttr247:",
  "\t\tm.cs = 134",
  "\t\tgoto f45",
  "\ttr184:",
  "\t\tm.cs = 135",
  "\t\tgoto _again",
  "\ttr206:",
  "\t\tm.cs = 136",
  "\t\tgoto f31",
  "\ttr248:",
  "\t\tm.cs = 136",
  "\t\tgoto f50",
  "\ttr166:",
  "\t\tm.cs = 137",
  "\t\tgoto _again",
  "\ttr164:",
  "\t\tm.cs = 138",
  "\t\tgoto _again",
  "\ttr162:",
  "\t\tm.cs = 139",
  "\t\tgoto _again",
  "\ttr160:",
  "\t\tm.cs = 140",
  "\t\tgoto _again",
  "\ttr158:",
  "\t\tm.cs = 141",
  "\t\tgoto _again",
  "\ttr156:",
  "\t\tm.cs = 142",
  "\t\tgoto _again",
  "\ttr154:",
  "\t\tm.cs = 143",
  "\t\tgoto _again",
  "\ttr152:",
  "\t\tm.cs = 144",
  "\t\tgoto _again",
  "\ttr150:",
  "\t\tm.cs = 145",
  "\t\tgoto _again",
  "\ttr148:",
  "\t\tm.cs = 146",
  "\t\tgoto _again",
  "\ttr146:",
  "\t\tm.cs = 147",
  "\t\tgoto _again",
  "\ttr144:",
  "\t\tm.cs = 148",
  "\t\tgoto _again",
  "\ttr142:",
  "\t\tm.cs = 149",
  "\t\tgoto _again",
  "\ttr140:",
  "\t\tm.cs = 150",
  "\t\tgoto _again",
  "\ttr138:",
  "\t\tm.cs = 151",
  "\t\tgoto _again",
  "\ttr136:",
  "\t\tm.cs = 152",
  "\t\tgoto _again",
  "\ttr134:",
  "\t\tm.cs = 153",
  "\t\tgoto _again",
  "\ttr132:",
  "\t\tm.cs = 154",
  "\t\tgoto _again",
  "\ttr130:",
  "\t\tm.cs = 155",
  "\t\tgoto _again",
  "\ttr128:",
  "\t\tm.cs = 156",
  "\t\tgoto _again",
  "\ttr126:",
  "\t\tm.cs = 157",
  "\t\tgoto _again",
  "\ttr124:",
  "\t\tm.cs = 158",
  "\t\tgoto _again",
  "\ttr122:",
  "\t\tm.cs = 159",
  "\t\tgoto _again",
  "\ttr120:",
  "\t\tm.cs = 160",
  "\t\tgoto _again",
  "\ttr118:",
  "\t\tm.cs = 161",
  "\t\tgoto _again",
  "\ttr116:",
  "\t\tm.cs = 162",
  "\t\tgoto _again",
  "\ttr114:",
  "\t\tm.cs = 163",
  "\t\tgoto _again",
  "\ttr112:",
  "\t\tm.cs = 164",
  "\t\tgoto _again",
  "\ttr110:",
  "\t\tm.cs = 165",
  "\t\tgoto _again"]

/-- machine.go:4001-4200 -/
def machineGo20 : List String := [
  "\ttr108:",
  "\t\tm.cs = 166",
  "\t\tgoto _again",
  "\ttr105:",
  "\t\tm.cs = 167",
  "\t\tgoto f1",
  "\ttr208:",
  "\t\tm.cs = 168",
  "\t\tgoto _again",
  "\ttr209:",
  "\t\tm.cs = 169",
  "\t\tgoto _again",
  "\ttr210:",
  "\t\tm.cs = 170",
  "\t\tgoto f2",
  "\ttr211:",
  "\t\tm.cs = 171",
  "\t\tgoto _again",
  "\ttr212:",
  "\t\tm.cs = 172",
  "\t\tgoto _again",
  "\ttr42:",
  "\t\tm.cs = 172",
  "\t\tgoto f4",
  "\ttr47:",
  "\t\tm.cs = 173",
  "\t\tgoto _again",
  "\ttr48:",
  "\t\tm.cs = 173",
  "\t\tgoto f9",
  "\ttr214:",
  "\t\tm.cs = 174",
  "\t\tgoto _again",
  "\ttr82:",
  "\t\tm.cs = 174",
  "\t\tgoto f16",
  "\ttr216:",
  "\t\tm.cs = 175",
  "\t\tgoto _again",
  "\ttr84:",
  "\t\tm.cs = 175",
  "\t\tgoto f18",
  "\ttr89:",
  "\t\tm.cs = 176",
  "\t\tgoto _again",
  "\ttr90:",
  "\t\tm.cs = 176",
  "\t\tgoto f9",
  "\ttr218:",
  "\t\tm.cs = 177",
  "\t\tgoto _again",
  "\ttr170:",
  "\t\tm.cs = 177",
  "\t\tgoto f4",
  "\ttr219:",
  "\t\tm.cs = 178",
  "\t\tgoto f38",
  "\ttr227:",
  "\t\tm.cs = 178",
  "\t\tgoto f42",
  "\ttr233:",
  "\t\tm.cs = 178",
  "\t\tgoto f45",
  "\ttr239:",
  "\t\tm.cs = 178",
  "\t\tgoto f48",
  "\ttr244:",
  "\t\tm.cs = 178",
  "\t\tgoto f51",
  "\ttr224:",
  "\t\tm.cs = 179",
  "\t\tgoto _again",
  "\ttr222:",
  "\t\tm.cs = 179",
  "\t\tgoto f4",
  "\ttr175:",
  "\t\tm.cs = 180",
  "\t\tgoto _again",
  "\ttr176:",
  "\t\tm.cs = 180",
  "\t\tgoto f9",
  "\ttr180:",
  "\t\tm.cs = 181",
  "\t\tgoto _again",
  "\ttr181:",
  "\t\tm.cs = 181",
  "\t\tgoto f9",
  "\ttr226:",
  "\t\tm.cs = 182",
  "\t\tgoto _again",
  "\ttr186:",
  "\t\tm.cs = 182",
  "\t\tgoto f26",
  "\ttr232:",
  "\t\tm.cs = 182",
  "\t\tgoto f44",
  "\ttr192:",
  "\t\tm.cs = 183",
  "\t\tgoto _again",
  "\ttr193:",
  "\t\tm.cs = 183",
  "\t\tgoto f9",
  "\ttr229:",
  "\t\tm.cs = 184",
  "\t\tgoto f42",
  "\ttr235:",
  "\t\tm.cs = 184",
  "\t\tgoto f45",
  "\ttr230:",
  "\t\tm.cs = 185",
  "\t\tgoto _again",
  "\ttr231:",
  "\t\tm.cs = 186",
  "\t\tgoto _again",
  "\ttr238:",
  "\t\tm.cs = 187",
  "\t\tgoto _again",
  "\ttr204:",
  "\t\tm.cs = 187",
  "\t\tgoto f31",
  "\ttr243:",
  "\t\tm.cs = 187",
  "\t\tgoto f50",
  "\ttr197:",
  "\t\tm.cs = 188",
  "\t\tgoto _again",
  "\ttr198:",
  "\t\tm.cs = 188",
  "\t\tgoto f9",
  "\ttr241:",
  "\t\tm.cs = 189",
  "\t\tgoto _again",
  "\ttr246:",
  "\t\tm.cs = 189",
  "\t\tgoto f50",
  "\ttr242:",
  "\t\tm.cs = 190",
  "\t\tgoto _again",
  "\ttr202:",
  "\t\tm.cs = 191",
  "\t\tgoto _again",
  "\ttr207:",
  "\t\tm.cs = 192",
  "\t\tgoto _again",
  "\ttr249:",
  "\t\tm.cs = 193",
  "\t\tgoto _again",
  "",
  "\tf4:",
  "",
  "\t\tm.pb = m.p",
  "",
  "\t\tgoto _again",
  "\tf9:",
  "",
  "\t\t// List of positions in the buffer to later lowercase",
  "\t\toutput.tolower = append(output.tolower, m.p-m.pb)",
  "",
  "\t\tgoto _again",
  "\tf2:",
  "",
  "\t\toutput.prefix = string(m.text())",
  "",
  "\t\tgoto _again",
  "\tf6:",
  "",
  "\t\toutput.ID = string(m.text())",
  "",
  "\t\tgoto _again",
  "\tf38:",
  "",
  "\t\toutput.SS = string(m.text())",
  "\t\t// Iterate upper letters lowering them",
  "\t\tfor _, i := range output.tolower {",
  "\t\t\tm.data[m.pb+i] = m.data[m.pb+i] + 32",
  "\t\t}",
  "\t\toutput.norm = string(m.text())",
  "\t\t// Revert the buffer to the original",
  "\t\tfor _, i := range output.tolower {",
  "\t\t\tm.data[m.pb+i] = m.data[m.pb+i] - 32",
  "\t\t}",
  "",
  "\t\tgoto _again",
  "\tf0:",
  "",
  "\t\tm.err = fmt.Errorf(errPrefix, m.p)",
  "\t\t(m.p)--",
  "",
  "\t\tm.cs = 193",
  "\t\tgoto _again",
  "",
  "\t\tgoto _again",
  "\tf5:",
  "",
  "\t\tm.err = fmt.Errorf(errIdentifier, m.p)",
  "\t\t(m.p)--",
  "",
  "\t\tm.cs = 193",
  "\t\tgoto _again",
  ""]

/-- machine.go:4201-4400 -/
def machineGo21 : List String := [
  "\t\tgoto _again",
  "\tf7:",
  "",
  "\t\tm.err = fmt.Errorf(errSpecificString, m.p)",
  "\t\t(m.p)--",
  "",
  "\t\tm.cs = 193",
  "\t\tgoto _again",
  "",
  "\t\tgoto _again",
  "\tf23:",
  "",
  "\t\tif m.parsingMode == RFC2141Only || m.parsingMode == RFC8141Only {",
  "\t\t\tm.err = fmt.Errorf(errHex, m.p)",
  "\t\t\t(m.p)--",
  "",
  "\t\t\tm.cs = 193",
  "\t\t\tgoto _again",
  "",
  "\t\t}",
  "",
  "\t\tgoto _again",
  "\tf11:",
  "",
  "\t\tm.err = fmt.Errorf(errSCIMNamespace, m.p)",
  "\t\t(m.p)--",
  "",
  "\t\tm.cs = 193",
  "\t\tgoto _again",
  "",
  "\t\tgoto _again",
  "\tf13:",
  "",
  "\t\tm.err = fmt.Errorf(errSCIMType, m.p)",
  "\t\t(m.p)--",
  "",
  "\t\tm.cs = 193",
  "\t\tgoto _again",
  "",
  "\t\tgoto _again",
  "\tf15:",
  "",
  "\t\tm.err = fmt.Errorf(errSCIMName, m.p)",
  "\t\t(m.p)--",
  "",
  "\t\tm.cs = 193",
  "\t\tgoto _again",
  "",
  "\t\tgoto _again",
  "\tf17:",
  "",
  "\t\tif m.p == m.pe {",
  "\t\t\tm.err = fmt.Errorf(errSCIMOtherIncomplete, m.p-1)",
  "\t\t} else {",
  "\t\t\tm.err = fmt.Errorf(errSCIMOther, m.p)",
  "\t\t}",
  "\t\t(m.p)--",
  "",
  "\t\tm.cs = 193",
  "\t\tgoto _again",
  "",
  "\t\tgoto _again",
  "\tf14:",
  "",
  "\t\toutput.scim.Type = scimschema.TypeFromString(string(m.text()))",
  "",
  "\t\tgoto _again",
  "\tf16:",
  "",
  "\t\toutput.scim.pos = m.p",
  "",
  "\t\tgoto _again",
  "\tf35:",
  "",
  "\t\toutput.scim.Name = string(m.data[output.scim.pos:m.p])",
  "",
  "\t\tgoto _again",
  "\tf18:",
  "",
  "\t\toutput.scim.pos = m.p",
  "",
  "\t\tgoto _again",
  "\tf22:",
  "",
  "\t\tm.err = fmt.Errorf(err8141SpecificString, m.p)",
  "\t\t(m.p)--",
  "",
  "\t\tm.cs = 193",
  "\t\tgoto _again",
  "",
  "\t\tgoto _again",
  "\tf21:",
  "",
  "\t\tm.err = fmt.Errorf(err8141Identifier, m.p)",
  "\t\t(m.p)--",
  "",
  "\t\tm.cs = 193",
  "\t\tgoto _again",
  "",
  "\t\tgoto _again",
  "\tf42:",
  "",
  "\t\toutput.rComponent = string(m.text())",
  "",
  "\t\tgoto _again",
  "\tf48:",
  "",
  "\t\toutput.qComponent = string(m.text())",
  "",
  "\t\tgoto _again",
  "\tf44:",
  "",
  "\t\tif output.rStart {",
  "\t\t\tm.err = fmt.Errorf(err8141RComponentStart, m.p)",
  "\t\t\t(m.p)--",
  "",
  "\t\t\tm.cs = 193",
  "\t\t\tgoto _again",
  "",
  "\t\t}",
  "\t\toutput.rStart = true",
  "",
  "\t\tgoto _again",
  "\tf50:",
  "",
  "\t\tif output.qStart {",
  "\t\t\tm.err = fmt.Errorf(err8141QComponentStart, m.p)",
  "\t\t\t(m.p)--",
  "",
  "\t\t\tm.cs = 193",
  "\t\t\tgoto _again",
  "",
  "\t\t}",
  "\t\toutput.qStart = true",
  "",
  "\t\tgoto _again",
  "\tf25:",
  "",
  "\t\tm.err = fmt.Errorf(err8141MalformedRComp, m.p)",
  "\t\t(m.p)--",
  "",
  "\t\tm.cs = 193",
  "\t\tgoto _again",
  "",
  "\t\tgoto _again",
  "\tf30:",
  "",
  "\t\tm.err = fmt.Errorf(err8141MalformedQComp, m.p)",
  "\t\t(m.p)--",
  "",
  "\t\tm.cs = 193",
  "\t\tgoto _again",
  "",
  "\t\tgoto _again",
  "\tf1:",
  "",
  "\t\tm.pb = m.p",
  "",
  "\t\tif m.parsingMode != RFC8141Only {",
  "\t\t\t// Throw an error when:",
  "\t\t\t// - we are entering here matching the the prefix in the namespace identifier part",
  "\t\t\t// - looking ahead (3 chars) we find a colon",
  "\t\t\tif pos := m.p + 3; pos < m.pe && m.data[pos] == 58 && output.prefix != \"\" {",
  "\t\t\t\tm.err = fmt.Errorf(errNoUrnWithinID, pos)",
  "\t\t\t\t(m.p)--",
  "",
  "\t\t\t\tm.cs = 193",
  "\t\t\t\tgoto _again",
  "",
  "\t\t\t}",
  "\t\t}",
  "",
  "\t\tgoto _again",
  "\tf12:",
  "",
  "\t\toutput.ID = string(m.text())",
  "",
  "\t\toutput.scim = &SCIM{}",
  "",
  "\t\tgoto _again",
  "\tf3:",
  "",
  "\t\tm.err = fmt.Errorf(errIdentifier, m.p)",
  "\t\t(m.p)--",
  "",
  "\t\tm.cs = 193",
  "\t\tgoto _again",
  "",
  "\t\tm.err = fmt.Errorf(errPrefix, m.p)",
  "\t\t(m.p)--",
  "",
  "\t\tm.cs = 193",
  "\t\tgoto _again",
  "",
  "\t\tgoto _again",
  "\tf10:",
  "",
  "\t\tm.err = fmt.Errorf(errIdentifier, m.p)",
  "\t\t(m.p)--",
  ""]

/-- machine.go:4401-4600 -/
def machineGo22 : List String := [
  "\t\tm.cs = 193",
  "\t\tgoto _again",
  "",
  "\t\tm.err = fmt.Errorf(errNoUrnWithinID, m.p)",
  "\t\t(m.p)--",
  "",
  "\t\tm.cs = 193",
  "\t\tgoto _again",
  "",
  "\t\tgoto _again",
  "\tf8:",
  "",
  "\t\tif m.parsingMode == RFC2141Only || m.parsingMode == RFC8141Only {",
  "\t\t\tm.err = fmt.Errorf(errHex, m.p)",
  "\t\t\t(m.p)--",
  "",
  "\t\t\tm.cs = 193",
  "\t\t\tgoto _again",
  "",
  "\t\t}",
  "",
  "\t\tm.err = fmt.Errorf(errSpecificString, m.p)",
  "\t\t(m.p)--",
  "",
  "\t\tm.cs = 193",
  "\t\tgoto _again",
  "",
  "\t\tgoto _again",
  "\tf19:",
  "",
  "\t\tif m.parsingMode == RFC2141Only || m.parsingMode == RFC8141Only {",
  "\t\t\tm.err = fmt.Errorf(errHex, m.p)",
  "\t\t\t(m.p)--",
  "",
  "\t\t\tm.cs = 193",
  "\t\t\tgoto _again",
  "",
  "\t\t}",
  "",
  "\t\tif m.p == m.pe {",
  "\t\t\tm.err = fmt.Errorf(errSCIMOtherIncomplete, m.p-1)",
  "\t\t} else {",
  "\t\t\tm.err = fmt.Errorf(errSCIMOther, m.p)",
  "\t\t}",
  "\t\t(m.p)--",
  "",
  "\t\tm.cs = 193",
  "\t\tgoto _again",
  "",
  "\t\tgoto _again",
  "\tf24:",
  "",
  "\t\tif m.parsingMode == RFC2141Only || m.parsingMode == RFC8141Only {",
  "\t\t\tm.err = fmt.Errorf(errHex, m.p)",
  "\t\t\t(m.p)--",
  "",
  "\t\t\tm.cs = 193",
  "\t\t\tgoto _again",
  "",
  "\t\t}",
  "",
  "\t\tm.err = fmt.Errorf(err8141SpecificString, m.p)",
  "\t\t(m.p)--",
  "",
  "\t\tm.cs = 193",
  "\t\tgoto _again",
  "",
  "\t\tgoto _again",
  "\tf27:",
  "",
  "\t\tif m.parsingMode == RFC2141Only || m.parsingMode == RFC8141Only {",
  "\t\t\tm.err = fmt.Errorf(errHex, m.p)",
  "\t\t\t(m.p)--",
  "",
  "\t\t\tm.cs = 193",
  "\t\t\tgoto _again",
  "",
  "\t\t}",
  "",
  "\t\tm.err = fmt.Errorf(err8141MalformedRComp, m.p)",
  "\t\t(m.p)--",
  "",
  "\t\tm.cs = 193",
  "\t\tgoto _again",
  "",
  "\t\tgoto _again",
  "\tf28:",
  "",
  "\t\tif m.parsingMode == RFC2141Only || m.parsingMode == RFC8141Only {",
  "\t\t\tm.err = fmt.Errorf(errHex, m.p)",
  "\t\t\t(m.p)--",
  "",
  "\t\t\tm.cs = 193",
  "\t\t\tgoto _again",
  "",
  "\t\t}",
  "",
  "\t\tm.err = fmt.Errorf(err8141MalformedQComp, m.p)",
  "\t\t(m.p)--",
  "",
  "\t\tm.cs = 193",
  "\t\tgoto _again",
  "",
  "\t\tgoto _again",
  "\tf20:",
  "",
  "\t\tm.err = fmt.Errorf(err8141Identifier, m.p)",
  "\t\t(m.p)--",
  "",
  "\t\tm.cs = 193",
  "\t\tgoto _again",
  "",
  "\t\tm.err = fmt.Errorf(errPrefix, m.p)",
  "\t\t(m.p)--",
  "",
  "\t\tm.cs = 193",
  "\t\tgoto _again",
  "",
  "\t\tgoto _again",
  "\tf26:",
  "",
  "\t\tif output.rStart {",
  "\t\t\tm.err = fmt.Errorf(err8141RComponentStart, m.p)",
  "\t\t\t(m.p)--",
  "",
  "\t\t\tm.cs = 193",
  "\t\t\tgoto _again",
  "",
  "\t\t}",
  "\t\toutput.rStart = true",
  "",
  "\t\tm.pb = m.p",
  "",
  "\t\tgoto _again",
  "\tf45:",
  "",
  "\t\tif output.rStart {",
  "\t\t\tm.err = fmt.Errorf(err8141RComponentStart, m.p)",
  "\t\t\t(m.p)--",
  "",
  "\t\t\tm.cs = 193",
  "\t\t\tgoto _again",
  "",
  "\t\t}",
  "\t\toutput.rStart = true",
  "",
  "\t\toutput.rComponent = string(m.text())",
  "",
  "\t\tgoto _again",
  "\tf31:",
  "",
  "\t\tif output.qStart {",
  "\t\t\tm.err = fmt.Errorf(err8141QComponentStart, m.p)",
  "\t\t\t(m.p)--",
  "",
  "\t\t\tm.cs = 193",
  "\t\t\tgoto _again",
  "",
  "\t\t}",
  "\t\toutput.qStart = true",
  "",
  "\t\tm.pb = m.p",
  "",
  "\t\tgoto _again",
  "\tf51:",
  "",
  "\t\tif output.qStart {",
  "\t\t\tm.err = fmt.Errorf(err8141QComponentStart, m.p)",
  "\t\t\t(m.p)--",
  "",
  "\t\t\tm.cs = 193",
  "\t\t\tgoto _again",
  "",
  "\t\t}",
  "\t\toutput.qStart = true",
  "",
  "\t\toutput.qComponent = string(m.text())",
  "",
  "\t\tgoto _again",
  "\tf46:",
  "",
  "\t\tm.err = fmt.Errorf(err8141MalformedRComp, m.p)",
  "\t\t(m.p)--",
  "",
  "\t\tm.cs = 193",
  "\t\tgoto _again",
  "",
  "\t\tm.err = fmt.Errorf(err8141MalformedQComp, m.p)",
  "\t\t(m.p)--",
  "",
  "\t\tm.cs = 193",
  "\t\tgoto _again",
  "",
  "\t\tgoto _again",
  "\tf29:",
  "",
  "\t\tif m.parsingMode == RFC2141Only || m.parsingMode == RFC8141Only {",
  "\t\t\tm.err = fmt.Errorf(errHex, m.p)",
  "\t\t\t(m.p)--",
  ""]

/-- machine.go:4601-4800 -/
def machineGo23 : List String := [
  "\t\t\tm.cs = 193",
  "\t\t\tgoto _again",
  "",
  "\t\t}",
  "",
  "\t\tm.err = fmt.Errorf(err8141MalformedRComp, m.p)",
  "\t\t(m.p)--",
  "",
  "\t\tm.cs = 193",
  "\t\tgoto _again",
  "",
  "\t\tm.err = fmt.Errorf(err8141MalformedQComp, m.p)",
  "\t\t(m.p)--",
  "",
  "\t\tm.cs = 193",
  "\t\tgoto _again",
  "",
  "\t\tgoto _again",
  "",
  "\t_again:",
  "\t\tswitch _toStateActions[m.cs] {",
  "\t\tcase 33:",
  "",
  "\t\t\t(m.p)--",
  "",
  "\t\t\tm.err = fmt.Errorf(err8141InformalID, m.p)",
  "\t\t\tm.cs = 193",
  "\t\t\tgoto _again",
  "\t\t}",
  "",
  "\t\tif m.cs == 0 {",
  "\t\t\tgoto _out",
  "\t\t}",
  "\t\tif (m.p)++; (m.p) != (m.pe) {",
  "\t\t\tgoto _resume",
  "\t\t}",
  "\t_testEof:",
  "\t\t{",
  "\t\t}",
  "\t\tif (m.p) == (m.eof) {",
  "\t\t\tswitch _eofActions[m.cs] {",
  "\t\t\tcase 1:",
  "",
  "\t\t\t\tm.err = fmt.Errorf(errPrefix, m.p)",
  "\t\t\t\t(m.p)--",
  "",
  "\t\t\t\tm.cs = 193",
  "\t\t\t\tgoto _again",
  "",
  "\t\t\tcase 6:",
  "",
  "\t\t\t\tm.err = fmt.Errorf(errIdentifier, m.p)",
  "\t\t\t\t(m.p)--",
  "",
  "\t\t\t\tm.cs = 193",
  "\t\t\t\tgoto _again",
  "",
  "\t\t\tcase 8:",
  "",
  "\t\t\t\tm.err = fmt.Errorf(errSpecificString, m.p)",
  "\t\t\t\t(m.p)--",
  "",
  "\t\t\t\tm.cs = 193",
  "\t\t\t\tgoto _again",
  "",
  "\t\t\tcase 24:",
  "",
  "\t\t\t\tif m.parsingMode == RFC2141Only || m.parsingMode == RFC8141Only {",
  "\t\t\t\t\tm.err = fmt.Errorf(errHex, m.p)",
  "\t\t\t\t\t(m.p)--",
  "",
  "\t\t\t\t\tm.cs = 193",
  "\t\t\t\t\tgoto _again",
  "",
  "\t\t\t\t}",
  "",
  "\t\t\tcase 12:",
  "",
  "\t\t\t\tm.err = fmt.Errorf(errSCIMNamespace, m.p)",
  "\t\t\t\t(m.p)--",
  "",
  "\t\t\t\tm.cs = 193",
  "\t\t\t\tgoto _again",
  "",
  "\t\t\tcase 14:",
  "",
  "\t\t\t\tm.err = fmt.Errorf(errSCIMType, m.p)",
  "\t\t\t\t(m.p)--",
  "",
  "\t\t\t\tm.cs = 193",
  "\t\t\t\tgoto _again",
  "",
  "\t\t\tcase 16:",
  "",
  "\t\t\t\tm.err = fmt.Errorf(errSCIMName, m.p)",
  "\t\t\t\t(m.p)--",
  "",
  "\t\t\t\tm.cs = 193",
  "\t\t\t\tgoto _again",
  "",
  "\t\t\tcase 18:",
  "",
  "\t\t\t\tif m.p == m.pe {",
  "\t\t\t\t\tm.err = fmt.Errorf(errSCIMOtherIncomplete, m.p-1)",
  "\t\t\t\t} else {",
  "\t\t\t\t\tm.err = fmt.Errorf(errSCIMOther, m.p)",
  "\t\t\t\t}",
  "\t\t\t\t(m.p)--",
  "",
  "\t\t\t\tm.cs = 193",
  "\t\t\t\tgoto _again",
  "",
  "\t\t\tcase 23:",
  "",
  "\t\t\t\tm.err = fmt.Errorf(err8141SpecificString, m.p)",
  "\t\t\t\t(m.p)--",
  "",
  "\t\t\t\tm.cs = 193",
  "\t\t\t\tgoto _again",
  "",
  "\t\t\tcase 22:",
  "",
  "\t\t\t\tm.err = fmt.Errorf(err8141Identifier, m.p)",
  "\t\t\t\t(m.p)--",
  "",
  "\t\t\t\tm.cs = 193",
  "\t\t\t\tgoto _again",
  "",
  "\t\t\tcase 26:",
  "",
  "\t\t\t\tm.err = fmt.Errorf(err8141MalformedRComp, m.p)",
  "\t\t\t\t(m.p)--",
  "",
  "\t\t\t\tm.cs = 193",
  "\t\t\t\tgoto _again",
  "",
  "\t\t\tcase 31:",
  "",
  "\t\t\t\tm.err = fmt.Errorf(err8141MalformedQComp, m.p)",
  "\t\t\t\t(m.p)--",
  "",
  "\t\t\t\tm.cs = 193",
  "\t\t\t\tgoto _again",
  "",
  "\t\t\tcase 34:",
  "",
  "\t\t\t\toutput.SS = string(m.text())",
  "\t\t\t\t// Iterate upper letters lowering them",
  "\t\t\t\tfor _, i := range output.tolower {",
  "\t\t\t\t\tm.data[m.pb+i] = m.data[m.pb+i] + 32",
  "\t\t\t\t}",
  "\t\t\t\toutput.norm = string(m.text())",
  "\t\t\t\t// Revert the buffer to the original",
  "\t\t\t\tfor _, i := range output.tolower {",
  "\t\t\t\t\tm.data[m.pb+i] = m.data[m.pb+i] - 32",
  "\t\t\t\t}",
  "",
  "\t\t\t\toutput.kind = RFC2141",
  "",
  "\t\t\tcase 38:",
  "",
  "\t\t\t\toutput.SS = string(m.text())",
  "\t\t\t\t// Iterate upper letters lowering them",
  "\t\t\t\tfor _, i := range output.tolower {",
  "\t\t\t\t\tm.data[m.pb+i] = m.data[m.pb+i] + 32",
  "\t\t\t\t}",
  "\t\t\t\toutput.norm = string(m.text())",
  "\t\t\t\t// Revert the buffer to the original",
  "\t\t\t\tfor _, i := range output.tolower {",
  "\t\t\t\t\tm.data[m.pb+i] = m.data[m.pb+i] - 32",
  "\t\t\t\t}",
  "",
  "\t\t\t\toutput.kind = RFC8141",
  "",
  "\t\t\tcase 4:",
  "",
  "\t\t\t\tm.err = fmt.Errorf(errIdentifier, m.p)",
  "\t\t\t\t(m.p)--",
  "",
  "\t\t\t\tm.cs = 193",
  "\t\t\t\tgoto _again",
  "",
  "\t\t\t\tm.err = fmt.Errorf(errPrefix, m.p)",
  "\t\t\t\t(m.p)--",
  "",
  "\t\t\t\tm.cs = 193",
  "\t\t\t\tgoto _again",
  "",
  "\t\t\tcase 11:",
  "",
  "\t\t\t\tm.err = fmt.Errorf(errIdentifier, m.p)",
  "\t\t\t\t(m.p)--",
  "",
  "\t\t\t\tm.cs = 193",
  "\t\t\t\tgoto _again",
  "",
  "\t\t\t\tm.err = fmt.Errorf(errNoUrnWithinID, m.p)",
  "\t\t\t\t(m.p)--",
  "",
  "\t\t\t\tm.cs = 193"]

/-- machine.go:4801-5000 -/
def machineGo24 : List String := [
  "\t\t\t\tgoto _again",
  "",
  "\t\t\tcase 9:",
  "",
  "\t\t\t\tif m.parsingMode == RFC2141Only || m.parsingMode == RFC8141Only {",
  "\t\t\t\t\tm.err = fmt.Errorf(errHex, m.p)",
  "\t\t\t\t\t(m.p)--",
  "",
  "\t\t\t\t\tm.cs = 193",
  "\t\t\t\t\tgoto _again",
  "",
  "\t\t\t\t}",
  "",
  "\t\t\t\tm.err = fmt.Errorf(errSpecificString, m.p)",
  "\t\t\t\t(m.p)--",
  "",
  "\t\t\t\tm.cs = 193",
  "\t\t\t\tgoto _again",
  "",
  "\t\t\tcase 20:",
  "",
  "\t\t\t\tif m.parsingMode == RFC2141Only || m.parsingMode == RFC8141Only {",
  "\t\t\t\t\tm.err = fmt.Errorf(errHex, m.p)",
  "\t\t\t\t\t(m.p)--",
  "",
  "\t\t\t\t\tm.cs = 193",
  "\t\t\t\t\tgoto _again",
  "",
  "\t\t\t\t}",
  "",
  "\t\t\t\tif m.p == m.pe {",
  "\t\t\t\t\tm.err = fmt.Errorf(errSCIMOtherIncomplete, m.p-1)",
  "\t\t\t\t} else {",
  "\t\t\t\t\tm.err = fmt.Errorf(errSCIMOther, m.p)",
  "\t\t\t\t}",
  "\t\t\t\t(m.p)--",
  "",
  "\t\t\t\tm.cs = 193",
  "\t\t\t\tgoto _again",
  "",
  "\t\t\tcase 25:",
  "",
  "\t\t\t\tif m.parsingMode == RFC2141Only || m.parsingMode == RFC8141Only {",
  "\t\t\t\t\tm.err = fmt.Errorf(errHex, m.p)",
  "\t\t\t\t\t(m.p)--",
  "",
  "\t\t\t\t\tm.cs = 193",
  "\t\t\t\t\tgoto _again",
  "",
  "\t\t\t\t}",
  "",
  "\t\t\t\tm.err = fmt.Errorf(err8141SpecificString, m.p)",
  "\t\t\t\t(m.p)--",
  "",
  "\t\t\t\tm.cs = 193",
  "\t\t\t\tgoto _again",
  "",
  "\t\t\tcase 28:",
  "",
  "\t\t\t\tif m.parsingMode == RFC2141Only || m.parsingMode == RFC8141Only {",
  "\t\t\t\t\tm.err = fmt.Errorf(errHex, m.p)",
  "\t\t\t\t\t(m.p)--",
  "",
  "\t\t\t\t\tm.cs = 193",
  "\t\t\t\t\tgoto _again",
  "",
  "\t\t\t\t}",
  "",
  "\t\t\t\tm.err = fmt.Errorf(err8141MalformedRComp, m.p)",
  "\t\t\t\t(m.p)--",
  "",
  "\t\t\t\tm.cs = 193",
  "\t\t\t\tgoto _again",
  "",
  "\t\t\tcase 29:",
  "",
  "\t\t\t\tif m.parsingMode == RFC2141Only || m.parsingMode == RFC8141Only {",
  "\t\t\t\t\tm.err = fmt.Errorf(errHex, m.p)",
  "\t\t\t\t\t(m.p)--",
  "",
  "\t\t\t\t\tm.cs = 193",
  "\t\t\t\t\tgoto _again",
  "",
  "\t\t\t\t}",
  "",
  "\t\t\t\tm.err = fmt.Errorf(err8141MalformedQComp, m.p)",
  "\t\t\t\t(m.p)--",
  "",
  "\t\t\t\tm.cs = 193",
  "\t\t\t\tgoto _again",
  "",
  "\t\t\tcase 21:",
  "",
  "\t\t\t\tm.err = fmt.Errorf(err8141Identifier, m.p)",
  "\t\t\t\t(m.p)--",
  "",
  "\t\t\t\tm.cs = 193",
  "\t\t\t\tgoto _again",
  "",
  "\t\t\t\tm.err = fmt.Errorf(errPrefix, m.p)",
  "\t\t\t\t(m.p)--",
  "",
  "\t\t\t\tm.cs = 193",
  "\t\t\t\tgoto _again",
  "",
  "\t\t\tcase 42:",
  "",
  "\t\t\t\toutput.rComponent = string(m.text())",
  "",
  "\t\t\t\toutput.kind = RFC8141",
  "",
  "\t\t\tcase 48:",
  "",
  "\t\t\t\toutput.qComponent = string(m.text())",
  "",
  "\t\t\t\toutput.kind = RFC8141",
  "",
  "\t\t\tcase 41:",
  "",
  "\t\t\t\toutput.fComponent = string(m.text())",
  "",
  "\t\t\t\toutput.kind = RFC8141",
  "",
  "\t\t\tcase 40:",
  "",
  "\t\t\t\tm.pb = m.p",
  "",
  "\t\t\t\toutput.fComponent = string(m.text())",
  "",
  "\t\t\t\toutput.kind = RFC8141",
  "",
  "\t\t\tcase 30:",
  "",
  "\t\t\t\tif m.parsingMode == RFC2141Only || m.parsingMode == RFC8141Only {",
  "\t\t\t\t\tm.err = fmt.Errorf(errHex, m.p)",
  "\t\t\t\t\t(m.p)--",
  "",
  "\t\t\t\t\tm.cs = 193",
  "\t\t\t\t\tgoto _again",
  "",
  "\t\t\t\t}",
  "",
  "\t\t\t\tm.err = fmt.Errorf(err8141MalformedRComp, m.p)",
  "\t\t\t\t(m.p)--",
  "",
  "\t\t\t\tm.cs = 193",
  "\t\t\t\tgoto _again",
  "",
  "\t\t\t\tm.err = fmt.Errorf(err8141MalformedQComp, m.p)",
  "\t\t\t\t(m.p)--",
  "",
  "\t\t\t\tm.cs = 193",
  "\t\t\t\tgoto _again",
  "",
  "\t\t\tcase 35:",
  "",
  "\t\t\t\toutput.scim.Name = string(m.data[output.scim.pos:m.p])",
  "",
  "\t\t\t\toutput.SS = string(m.text())",
  "\t\t\t\t// Iterate upper letters lowering them",
  "\t\t\t\tfor _, i := range output.tolower {",
  "\t\t\t\t\tm.data[m.pb+i] = m.data[m.pb+i] + 32",
  "\t\t\t\t}",
  "\t\t\t\toutput.norm = string(m.text())",
  "\t\t\t\t// Revert the buffer to the original",
  "\t\t\t\tfor _, i := range output.tolower {",
  "\t\t\t\t\tm.data[m.pb+i] = m.data[m.pb+i] - 32",
  "\t\t\t\t}",
  "",
  "\t\t\t\toutput.kind = RFC7643",
  "",
  "\t\t\tcase 37:",
  "",
  "\t\t\t\toutput.scim.Other = string(m.data[output.scim.pos:m.p])",
  "",
  "\t\t\t\toutput.SS = string(m.text())",
  "\t\t\t\t// Iterate upper letters lowering them",
  "\t\t\t\tfor _, i := range output.tolower {",
  "\t\t\t\t\tm.data[m.pb+i] = m.data[m.pb+i] + 32",
  "\t\t\t\t}",
  "\t\t\t\toutput.norm = string(m.text())",
  "\t\t\t\t// Revert the buffer to the original",
  "\t\t\t\tfor _, i := range output.tolower {",
  "\t\t\t\t\tm.data[m.pb+i] = m.data[m.pb+i] - 32",
  "\t\t\t\t}",
  "",
  "\t\t\t\toutput.kind = RFC7643",
  "",
  "\t\t\tcase 44:",
  "",
  "\t\t\t\tif output.rStart {",
  "\t\t\t\t\tm.err = fmt.Errorf(err8141RComponentStart, m.p)",
  "\t\t\t\t\t(m.p)--",
  "",
  "\t\t\t\t\tm.cs = 193",
  "\t\t\t\t\tgoto _again",
  "",
  "\t\t\t\t}",
  "\t\t\t\toutput.rStart = true",
  ""]

/-- machine.go:5001-5046 -/
def machineGo25 : List String := [
  "\t\t\t\toutput.rComponent = string(m.text())",
  "",
  "\t\t\t\toutput.kind = RFC8141",
  "",
  "\t\t\tcase 50:",
  "",
  "\t\t\t\tif output.qStart {",
  "\t\t\t\t\tm.err = fmt.Errorf(err8141QComponentStart, m.p)",
  "\t\t\t\t\t(m.p)--",
  "",
  "\t\t\t\t\tm.cs = 193",
  "\t\t\t\t\tgoto _again",
  "",
  "\t\t\t\t}",
  "\t\t\t\toutput.qStart = true",
  "",
  "\t\t\t\toutput.qComponent = string(m.text())",
  "",
  "\t\t\t\toutput.kind = RFC8141",
  "\t\t\t}",
  "\t\t}",
  "",
  "\t_out:",
  "\t\t{",
  "\t\t}",
  "\t}",
  "",
  "\tif m.cs < firstFinal || m.cs == enFail {",
  "\t\treturn nil, m.err",
  "\t}",
  "",
  "\treturn output, nil",
  "}",
  "",
  "func (m *machine) WithParsingMode(x ParsingMode) {",
  "\tm.parsingMode = x",
  "\tswitch m.parsingMode {",
  "\tcase RFC2141Only:",
  "\t\tm.startParsingAt = enMain",
  "\tcase RFC8141Only:",
  "\t\tm.startParsingAt = enRfc8141Only",
  "\tcase RFC7643Only:",
  "\t\tm.startParsingAt = enScimOnly",
  "\t}",
  "\tm.parsingModeSet = true",
  "}"]

/-- machine.go -/
def machineGo : List (List String) :=
  [machineGo0, machineGo1, machineGo2, machineGo3, machineGo4, machineGo5, machineGo6, machineGo7, machineGo8, machineGo9, machineGo10, machineGo11, machineGo12, machineGo13, machineGo14, machineGo15, machineGo16, machineGo17, machineGo18, machineGo19, machineGo20, machineGo21, machineGo22, machineGo23, machineGo24, machineGo25]

end Urn.GoSource
