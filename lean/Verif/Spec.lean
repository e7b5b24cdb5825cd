import Verif.Types
/-!
# Specification

Written from the RFCs, the documentation comments and the error messages of go-urn, without
looking at the automaton.  Nothing here mentions the model of the code (only its data types).
-/
set_option autoImplicit false
namespace Urn.Spec

/-! ## Character classes (bytes) -/

/-- `0-9` -/
def isDigit (c : UInt8) : Bool := 48 ≤ c && c ≤ 57
/-- `A-Z` -/
def isUpper (c : UInt8) : Bool := 65 ≤ c && c ≤ 90
/-- `a-z` -/
def isLower (c : UInt8) : Bool := 97 ≤ c && c ≤ 122
/-- letters -/
def isAlpha (c : UInt8) : Bool := isUpper c || isLower c
/-- letters and digits -/
def isAlnum (c : UInt8) : Bool := isDigit c || isAlpha c

/-- RFC 2141 `<other>`: `( ) + , - . : = @ ; $ _ ! * '` -/
def isOther (c : UInt8) : Bool :=
  c == 40 || c == 41 || c == 43 || c == 44 || c == 45 || c == 46 || c == 58 || c == 61 ||
  c == 64 || c == 59 || c == 36 || c == 95 || c == 33 || c == 42 || c == 39

example : ∀ c ∈ lit "()+,-.:=@;$_!*'", isOther c = true := by decide

/-- A character of an RFC 2141 namespace specific string, other than a percent escape. -/
def isSss (c : UInt8) : Bool := isAlnum c || isOther c
/-- RFC 8141 `pchar`, other than a percent escape: additionally `~` and `&`. -/
def isPchar (c : UInt8) : Bool := isSss c || c == 126 || c == 38
/-- `pchar` or `/` -/
def isPcharSlash (c : UInt8) : Bool := isPchar c || c == 47
/-- `pchar`, `/` or `?` -/
def isPcharSlashQ (c : UInt8) : Bool := isPchar c || c == 47 || c == 63
/-- A character of a namespace identifier. -/
def isNidChar (c : UInt8) : Bool := isAlnum c || c == 45

/-- ASCII lower case of one byte. -/
def lower (c : UInt8) : UInt8 := if isUpper c then c + 32 else c
/-- ASCII lower case of a string. -/
def lowerAll (w : Bytes) : Bytes := w.map lower

/-! ## Sequences with percent escapes -/

/-- `(cls | '%' alnum alnum)*` -/
inductive PctSeq (cls : UInt8 → Bool) : Bytes → Prop where
  | nil : PctSeq cls []
  | char {c : UInt8} {w : Bytes} : cls c = true → PctSeq cls w → PctSeq cls (c :: w)
  | pct {a b : UInt8} {w : Bytes} : isAlnum a = true → isAlnum b = true → PctSeq cls w →
      PctSeq cls (37 :: a :: b :: w)

/-- `(first | '%' alnum alnum) (cls | '%' alnum alnum)*` -/
inductive PctSeq1 (first cls : UInt8 → Bool) : Bytes → Prop where
  | char {c : UInt8} {w : Bytes} : first c = true → PctSeq cls w → PctSeq1 first cls (c :: w)
  | pct {a b : UInt8} {w : Bytes} : isAlnum a = true → isAlnum b = true → PctSeq cls w →
      PctSeq1 first cls (37 :: a :: b :: w)

/-- Lower case the two characters after each `%` and nothing else. -/
def lowerEsc : Bytes → Bytes
  | 37 :: a :: b :: w => 37 :: lower a :: lower b :: lowerEsc w
  | c :: w => c :: lowerEsc w
  | [] => []

/-- Equal, except possibly for the case of the two characters after each `%`. -/
inductive EscEq : Bytes → Bytes → Prop where
  | nil : EscEq [] []
  | char {c : UInt8} {v w : Bytes} : c ≠ 37 → EscEq v w → EscEq (c :: v) (c :: w)
  | pct {a b a' b' : UInt8} {v w : Bytes} : lower a = lower a' → lower b = lower b' →
      EscEq v w → EscEq (37 :: a :: b :: v) (37 :: a' :: b' :: w)

/-- Position `x` of `w` holds an upper case letter that is one or two bytes after a percent sign. -/
def UpperEscape (w : Bytes) (x : Nat) : Prop :=
  ∃ c, w[x]? = some c ∧ isUpper c = true ∧ ((1 ≤ x ∧ w[x - 1]? = some 37) ∨ (2 ≤ x ∧ w[x - 2]? = some 37))

/-! ## RFC 2141 -/

/-- The literal `urn` in any case. -/
def IsUrn (w : Bytes) : Prop := lowerAll w = lit "urn"

/-- Namespace identifier: 1 to 32 letters, digits and dashes, not starting with a dash,
and not the reserved string `urn`. -/
structure Nid2141 (w : Bytes) : Prop where
  nonempty : w ≠ []
  short : w.length ≤ 32
  chars : ∀ c ∈ w, isNidChar c = true
  noDash : w.head? ≠ some 45
  notUrn : ¬ IsUrn w

/-- Namespace specific string: `(sss | escape)+`. -/
def Nss2141 (w : Bytes) : Prop := w ≠ [] ∧ PctSeq isSss w

/-- `s` is the RFC 2141 URN `pre:nid:nss`. -/
structure Urn2141 (s pre nid nss : Bytes) : Prop where
  eq : s = pre ++ 58 :: nid ++ 58 :: nss
  hpre : IsUrn pre
  hnid : Nid2141 nid
  hnss : Nss2141 nss

/-! ## RFC 7643 (SCIM) -/

/-- The three SCIM types and their keywords. -/
inductive ScimType : Bytes → SchemaType → Prop where
  | schemas : ScimType (lit "schemas") SchemaType.Schemas
  | api : ScimType (lit "api") SchemaType.API
  | param : ScimType (lit "param") SchemaType.Param

/-- A SCIM name: one or more letters and digits. -/
def ScimName (w : Bytes) : Prop := w ≠ [] ∧ ∀ c ∈ w, isAlnum c = true

/-- The optional last part: `''` or `':' (sss | escape)+`. -/
inductive ScimTail : Bytes → Bytes → Prop where
  | none : ScimTail [] []
  | some {other : Bytes} : Nss2141 other → ScimTail (58 :: other) other

/-- `s` is the SCIM URN `pre:ietf:params:scim:kw:name` followed by `tail`, where `kw` is the
keyword of `ty` and `tail` is empty or a colon and `other`. -/
structure UrnScim (s pre kw : Bytes) (ty : SchemaType) (name tail other : Bytes) : Prop where
  eq : s = pre ++ 58 :: (lit "ietf:params:scim" ++ 58 :: (kw ++ 58 :: (name ++ tail)))
  hpre : IsUrn pre
  hkw : ScimType kw ty
  hname : ScimName name
  htail : ScimTail tail other

/-! ## RFC 8141 -/

/-- Namespace identifier: 2 to 32 letters, digits and dashes, first and last not a dash, and
not an ill-formed informal identifier (`urn-` followed by a letter or `0`). -/
structure Nid8141 (w : Bytes) : Prop where
  two : 2 ≤ w.length
  short : w.length ≤ 32
  chars : ∀ c ∈ w, isNidChar c = true
  first : w.head? ≠ some 45
  last : w.getLast? ≠ some 45
  informal : ¬ ∃ p x t, w = p ++ 45 :: x :: t ∧ IsUrn p ∧ (isAlpha x = true ∨ x = 48)

/-- Namespace specific string: a pchar, then pchars and slashes. -/
def Nss8141 (w : Bytes) : Prop := PctSeq1 isPchar isPcharSlash w

/-- The RFC 8141 production of r- and q-components: a pchar, then pchars, `/` and `?`. -/
def Component (w : Bytes) : Prop := PctSeq1 isPchar isPcharSlashQ w

/-- The fragment: pchars, `/` and `?`, possibly empty. -/
def Fragment (w : Bytes) : Prop := PctSeq isPcharSlashQ w

/-- The r-components accepted: `?+` may only occur followed by `/`; `?=` may only occur
followed by `/`, `?` or the end. -/
structure RComp (w : Bytes) : Prop where
  comp : Component w
  plus : ∀ a b, w = a ++ 63 :: 43 :: b → b.head? = some 47
  eq : ∀ a b, w = a ++ 63 :: 61 :: b → b = [] ∨ b.head? = some 47 ∨ b.head? = some 63

/-- The q-components accepted: `?=` may only occur followed by `/`. -/
structure QComp (w : Bytes) : Prop where
  comp : Component w
  eq : ∀ a b, w = a ++ 63 :: 61 :: b → b.head? = some 47

/-- `pfx ++ w` for a component that is present, nothing for one that is absent. -/
def opt (pfx : Bytes) : Option Bytes → Bytes
  | none => []
  | some w => pfx ++ w

/-- `s` is `pre:nid:nss`, then optionally `?+r`, `?=q` and `#f`, in this order. -/
structure Urn8141 (s pre nid nss : Bytes) (r q f : Option Bytes) : Prop where
  eq : s = pre ++ 58 :: nid ++ 58 :: nss ++ opt (lit "?+") r ++ opt (lit "?=") q ++ opt (lit "#") f
  hpre : IsUrn pre
  hnid : Nid8141 nid
  hnss : Nss8141 nss
  hr : ∀ w, r = some w → RComp w
  hq : ∀ w, q = some w → QComp w
  hf : ∀ w, f = some w → Fragment w

/-- The texts that RFC 8141 mode rejects without an error: a well-formed `urn:nid:nss` followed by a
question mark and then the end or a byte other than `+` and `=`; or a well-formed URN followed by `#`
and a fragment in which a forbidden byte is first or follows an ordinary character. -/
def Silent8141 (s : Bytes) : Prop :=
  (∃ b t pre nid nss, Urn8141 b pre nid nss none none none ∧ s = b ++ 63 :: t ∧ t.head? ≠ some 43 ∧ t.head? ≠ some 61) ∨
  (∃ b g c t pre nid nss r q, Urn8141 b pre nid nss r q none ∧ s = b ++ 35 :: g ++ c :: t ∧
    (g = [] ∨ ∃ g' d, g = g' ++ [d] ∧ PctSeq isPcharSlashQ g' ∧ isPcharSlashQ d = true) ∧ c ≠ 37 ∧ isPcharSlashQ c = false)

end Urn.Spec
