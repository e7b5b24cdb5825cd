import Verif.Go
/-!
# Data types: `Kind`, `scimschema.Type`, `SCIM`, `URN`
-/
set_option autoImplicit false
namespace Urn

/-- kind.go:3-10 -/
inductive Kind where
  | NONE | RFC2141 | RFC7643 | RFC8141
  deriving DecidableEq, Repr

/-- scim/schema/type.go:3 `type Type int` (an integer, so that values other than the four
constants exist, as in Go). -/
abbrev SchemaType := Int

namespace SchemaType
/-- scim/schema/type.go:6 -/
abbrev Unsupported : SchemaType := 0
/-- scim/schema/type.go:7 -/
abbrev Schemas : SchemaType := 1
/-- scim/schema/type.go:8 -/
abbrev API : SchemaType := 2
/-- scim/schema/type.go:9 -/
abbrev Param : SchemaType := 3

/-- scim/schema/type.go:12-23 `func (t Type) String() string` -/
def toStr (t : SchemaType) : Bytes :=
  if t = Schemas then lit "schemas"
  else if t = API then lit "api"
  else if t = Param then lit "param"
  else []

/-- scim/schema/type.go:25-36 `func TypeFromString(input string) Type` -/
def fromString (s : Bytes) : SchemaType :=
  if s = lit "schemas" then Schemas
  else if s = lit "api" then API
  else if s = lit "param" then Param
  else Unsupported
end SchemaType

/-- scim.go:12-17 -/
structure SCIM where
  Typ : SchemaType := 0   -- Go field name: `Type`
  Name : Bytes := []
  Other : Bytes := []
  pos : Int := 0
  deriving DecidableEq, Repr

/-- urn.go:18-31.  `scim` is a pointer in Go: `none` is nil. -/
structure URN where
  «prefix» : Bytes := []
  ID : Bytes := []
  SS : Bytes := []
  norm : Bytes := []
  kind : Kind := .NONE
  scim : Option SCIM := none
  rComponent : Bytes := []
  qComponent : Bytes := []
  fComponent : Bytes := []
  rStart : Bool := false
  qStart : Bool := false
  tolower : List Int := []
  deriving DecidableEq, Repr

end Urn
