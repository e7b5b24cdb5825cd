import Verif.Machine
/-!
# urn.go, scim.go, urn8141.go

Pointers to `URN`/`SCIM` are `Option`s (`none` = nil).  Methods called on a nil pointer that
read a field panic.
-/
set_option autoImplicit false
namespace Urn

/-- urn.go:36-45 `func (u *URN) Normalize() *URN` (receiver not nil).
`uni` is the behaviour of `strings.ToLower` on non-ASCII strings, see `toLower`. -/
def URN.normalize (uni : Bytes → Bytes) (u : URN) : URN :=
  { «prefix» := lit "urn", ID := toLower uni u.ID, SS := u.norm }

/-- urn.go:48-56 `func (u *URN) Equal(x *URN) bool` (receiver not nil). -/
def URN.equal (uni : Bytes → Bytes) (u : URN) (x : Option URN) : Bool :=
  match x with
  | none => false
  | some x =>
      let nu := u.normalize uni
      let nx := x.normalize uni
      nu.prefix == nx.prefix && nu.ID == nx.ID && nu.SS == nx.SS

/-- urn.go:64-83 `func (u *URN) String() string` (receiver not nil). -/
def URN.string (u : URN) : Bytes :=
  if u.ID ≠ [] ∧ u.SS ≠ [] then
    let res := if u.prefix = [] then lit "urn" else []
    let res := res ++ (u.prefix ++ lit ":" ++ u.ID ++ lit ":" ++ u.SS)
    let res := if u.rComponent ≠ [] then res ++ (lit "?+" ++ u.rComponent) else res
    let res := if u.qComponent ≠ [] then res ++ (lit "?=" ++ u.qComponent) else res
    let res := if u.fComponent ≠ [] then res ++ (lit "#" ++ u.fComponent) else res
    res
  else []

/-- urn.go:115-117 -/
def URN.isSCIM (u : URN) : Bool := u.kind == .RFC7643
/-- urn.go:119-125 -/
def URN.getSCIM (u : URN) : Option SCIM := if u.kind ≠ .RFC7643 then none else u.scim
/-- urn.go:127-129 -/
def URN.rfc (u : URN) : Kind := u.kind
/-- urn.go:131-133 -/
def URN.getF (u : URN) : Bytes := u.fComponent
/-- urn.go:135-137 -/
def URN.getQ (u : URN) : Bytes := u.qComponent
/-- urn.go:139-141 -/
def URN.getR (u : URN) : Bytes := u.rComponent

/-- Result of the package level `Parse`, with the caller's buffer after the call. -/
structure ParseResult where
  urn : Option URN
  ok : Bool
  buf : Bytes
  deriving DecidableEq, Repr

/-- urn.go:86-93 `func Parse(u []byte, options ...Option) (*URN, bool)` -/
def parse (u : Bytes) (options : List Opt := []) : Run ParseResult := do
  let m ← newMachine options
  let r ← m.parse u
  match r.err with
  | some _ => pure ⟨none, false, r.m.data⟩
  | none => pure ⟨r.urn, true, r.m.data⟩

/-! ## JSON

`encoding/json` is a parameter: how a Go string is encoded and how a JSON text is decoded into
a Go string variable. -/

/-- `json.Marshal` on a string (it never fails on strings) and `json.Unmarshal` into a string
variable (`none` = error). -/
structure JsonCodec where
  marshal : Bytes → Bytes
  unmarshal : Bytes → Option Bytes

/-- The errors of the three `UnmarshalJSON` methods: the error of `json.Unmarshal`, or
`fmt.Errorf` of urn.go:9, scim.go:10, urn8141.go:8 applied to the decoded string. -/
inductive JErr where
  | json
  | invalidURN (str : Bytes)
  | invalidSCIMURN (str : Bytes)
  | invalidURN8141 (str : Bytes)
  deriving DecidableEq, Repr

/-- urn.go:96-98 `func (u URN) MarshalJSON() ([]byte, error)` -/
def URN.marshalJSON (j : JsonCodec) (u : URN) : Bytes := j.marshal u.string

/-- urn.go:101-113 `func (u *URN) UnmarshalJSON(bytes []byte) error`: the receiver's new value
and the error. -/
def URN.unmarshalJSON (j : JsonCodec) (u : URN) (bytes : Bytes) : Run (URN × Option JErr) :=
  match j.unmarshal bytes with
  | none => pure (u, some .json)
  | some str => do
      let r ← parse str
      if r.ok = false then pure (u, some (.invalidURN str))
      else
        match r.urn with
        | none => .panic .nilDeref       -- `*u = *value`
        | some v => pure (v, none)

/-- scim.go:41-48 `func (s *SCIM) String() string` (receiver not nil). -/
def SCIM.string (s : SCIM) : Bytes :=
  let ret := lit "urn:ietf:params:scim:" ++ SchemaType.toStr s.Typ ++ lit ":" ++ s.Name
  if s.Other ≠ [] then ret ++ (lit ":" ++ s.Other) else ret

/-- scim.go:19-21 `func (s SCIM) MarshalJSON() ([]byte, error)` -/
def SCIM.marshalJSON (j : JsonCodec) (s : SCIM) : Bytes := j.marshal s.string

/-- scim.go:23-39 `func (s *SCIM) UnmarshalJSON(bytes []byte) error` -/
def SCIM.unmarshalJSON (j : JsonCodec) (s : SCIM) (bytes : Bytes) : Run (SCIM × Option JErr) :=
  match j.unmarshal bytes with
  | none => pure (s, some .json)
  | some str => do
      let r ← parse str [withParsingMode RFC7643Only]
      if r.ok = false then pure (s, some (.invalidSCIMURN str))
      else
        match r.urn with
        | none => .panic .nilDeref       -- `value.RFC()`
        | some v =>
            if v.rfc ≠ .RFC7643 then pure (s, some (.invalidSCIMURN str))
            else
              match v.getSCIM with
              | none => .panic .nilDeref -- `*value.SCIM()`
              | some x => pure (x, none)

/-- urn8141.go:10-12 `type URN8141 struct { *URN }` -/
structure URN8141 where
  urn : Option URN := none
  deriving DecidableEq, Repr

/-- urn8141.go:14-16 `func (u URN8141) MarshalJSON() ([]byte, error)`; `u.String()` is the
promoted method of the embedded pointer and reads its fields. -/
def URN8141.marshalJSON (j : JsonCodec) (u : URN8141) : Run Bytes :=
  match u.urn with
  | none => .panic .nilDeref
  | some v => pure (j.marshal v.string)

/-- urn8141.go:18-30 `func (u *URN8141) UnmarshalJSON(bytes []byte) error` -/
def URN8141.unmarshalJSON (j : JsonCodec) (u : URN8141) (bytes : Bytes) :
    Run (URN8141 × Option JErr) :=
  match j.unmarshal bytes with
  | none => pure (u, some .json)
  | some str => do
      let r ← parse str [withParsingMode RFC8141Only]
      if r.ok = false then pure (u, some (.invalidURN8141 str))
      else pure (⟨r.urn⟩, none)

end Urn
