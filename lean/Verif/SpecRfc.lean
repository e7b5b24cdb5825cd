import Verif.Spec
/-!
# The grammars of the RFCs

A transcription, production by production, of the ABNF of RFC 8141 section 2 (with the productions of
RFC 3986 it refers to), of the grammar of RFC 2141 section 2 and of RFC 7643 section 10.2.1.
It shares nothing with `Spec.lean` but the types and `lowerAll`.
-/
set_option autoImplicit false
namespace Urn.Rfc

/-! ## ABNF -/

/-- A set of texts. -/
abbrev Lang := Bytes → Prop

/-- One character of a class. -/
def one (p : UInt8 → Bool) : Lang := fun w => ∃ c, w = [c] ∧ p c = true
/-- One of the characters of a string. -/
def oneOf (s : String) : Lang := one fun c => (lit s).contains c
/-- One character of a range. -/
def range (lo hi : Char) : Lang := one fun c => lo.toNat ≤ c.toNat && c.toNat ≤ hi.toNat
/-- A quoted string (ABNF strings are case insensitive). -/
def str (s : String) : Lang := fun w => Spec.lowerAll w = Spec.lowerAll (lit s)
/-- `A / B` -/
def alt (A B : Lang) : Lang := fun w => A w ∨ B w
/-- `A B` -/
def cat (A B : Lang) : Lang := fun w => ∃ u v, w = u ++ v ∧ A u ∧ B v
/-- `[ A ]` -/
def optional (A : Lang) : Lang := fun w => w = [] ∨ A w
/-- `n A` -/
inductive Times (A : Lang) : Nat → Bytes → Prop where
  | zero : Times A 0 []
  | succ {n : Nat} {u v : Bytes} : A u → Times A n v → Times A (n + 1) (u ++ v)
/-- `lo*hi A` -/
def rep (lo hi : Nat) (A : Lang) : Lang := fun w => ∃ n, lo ≤ n ∧ n ≤ hi ∧ Times A n w
/-- `lo*A` -/
def reps (lo : Nat) (A : Lang) : Lang := fun w => ∃ n, lo ≤ n ∧ Times A n w

infixr:60 " ⬝ " => cat
infixr:55 " ∕ " => alt

/-! ## RFC 3986 -/

/-- `ALPHA = %x41-5A / %x61-7A` -/
def ALPHA : Lang := range 'A' 'Z' ∕ range 'a' 'z'
/-- `DIGIT = %x30-39` -/
def DIGIT : Lang := range '0' '9'
/-- `HEXDIG`, both cases (RFC 3986 section 2.1) -/
def HEXDIG : Lang := DIGIT ∕ range 'A' 'F' ∕ range 'a' 'f'
/-- `pct-encoded = "%" HEXDIG HEXDIG` -/
def pctEncoded : Lang := oneOf "%" ⬝ HEXDIG ⬝ HEXDIG
/-- `unreserved = ALPHA / DIGIT / "-" / "." / "_" / "~"` -/
def unreserved : Lang := ALPHA ∕ DIGIT ∕ oneOf "-._~"
/-- `sub-delims = "!" / "$" / "&" / "'" / "(" / ")" / "*" / "+" / "," / ";" / "="` -/
def subDelims : Lang := oneOf "!$&'()*+,;="
/-- `pchar = unreserved / pct-encoded / sub-delims / ":" / "@"` -/
def pchar : Lang := unreserved ∕ pctEncoded ∕ subDelims ∕ oneOf ":@"
/-- `fragment = *( pchar / "/" / "?" )` -/
def fragment : Lang := reps 0 (pchar ∕ oneOf "/" ∕ oneOf "?")

/-! ## RFC 8141 -/
namespace R8141

/-- `alphanum = ALPHA / DIGIT` -/
def alphanum : Lang := ALPHA ∕ DIGIT
/-- `ldh = alphanum / "-"` -/
def ldh : Lang := alphanum ∕ oneOf "-"
/-- `NID = (alphanum) 0*30(ldh) (alphanum)` -/
def NID : Lang := alphanum ⬝ rep 0 30 ldh ⬝ alphanum
/-- `NSS = pchar *(pchar / "/")` -/
def NSS : Lang := pchar ⬝ reps 0 (pchar ∕ oneOf "/")
/-- `assigned-name = "urn" ":" NID ":" NSS` -/
def assignedName : Lang := str "urn" ⬝ str ":" ⬝ NID ⬝ str ":" ⬝ NSS
/-- `r-component = pchar *( pchar / "/" / "?" )` -/
def rComponent : Lang := pchar ⬝ reps 0 (pchar ∕ oneOf "/" ∕ oneOf "?")
/-- `q-component = pchar *( pchar / "/" / "?" )` -/
def qComponent : Lang := pchar ⬝ reps 0 (pchar ∕ oneOf "/" ∕ oneOf "?")
/-- `rq-components = [ "?+" r-component ] [ "?=" q-component ]` -/
def rqComponents : Lang := optional (str "?+" ⬝ rComponent) ⬝ optional (str "?=" ⬝ qComponent)
/-- `f-component = fragment` -/
def fComponent : Lang := fragment
/-- `namestring = assigned-name [ rq-components ] [ "#" f-component ]` -/
def namestring : Lang := assignedName ⬝ optional rqComponents ⬝ optional (str "#" ⬝ fComponent)

/-- Section 5.2: an informal NID is `"urn-" <number>`, a number not beginning with `0`. -/
def informalNID : Lang := str "urn-" ⬝ range '1' '9' ⬝ reps 0 DIGIT

end R8141

/-! ## RFC 2141 -/
namespace R2141

/-- `<upper> | <lower> | <number>` -/
def letNum : Lang := range 'A' 'Z' ∕ range 'a' 'z' ∕ range '0' '9'
/-- `<let-num-hyp> ::= <upper> | <lower> | <number> | "-"` -/
def letNumHyp : Lang := letNum ∕ oneOf "-"
/-- `<NID> ::= <let-num> [ 1,31<let-num-hyp> ]` -/
def NID : Lang := letNum ⬝ optional (rep 1 31 letNumHyp)
/-- `<other> ::= "(" | ")" | "+" | "," | "-" | "." | ":" | "=" | "@" | ";" | "$" | "_" | "!" | "*" | "'"` -/
def other : Lang := oneOf "()+,-.:=@;$_!*'"
/-- `<reserved> ::= '%' | "/" | "?" | "#"` -/
def reserved : Lang := oneOf "%/?#"
/-- `<trans> ::= <upper> | <lower> | <number> | <other> | <reserved>` -/
def trans : Lang := letNum ∕ other ∕ reserved
/-- `<hex> ::= <number> | "A" … "F" | "a" … "f"` -/
def hex : Lang := range '0' '9' ∕ range 'A' 'F' ∕ range 'a' 'f'
/-- `<URN chars> ::= <trans> | "%" <hex> <hex>` -/
def urnChars : Lang := trans ∕ oneOf "%" ⬝ hex ⬝ hex
/-- `<NSS> ::= 1*<URN chars>` -/
def NSS : Lang := reps 1 urnChars
/-- `<URN> ::= "urn:" <NID> ":" <NSS>` -/
def URN : Lang := str "urn:" ⬝ NID ⬝ str ":" ⬝ NSS

end R2141

/-! ## RFC 7643, section 10.2.1 -/
namespace R7643

/-- A text that conforms to the URN syntax of RFC 2141 where no reserved character is used unencoded
(section 2.3 there). -/
def urnSyntax : Lang := reps 1 (R2141.letNum ∕ R2141.other ∕ oneOf "%" ⬝ R2141.hex ⬝ R2141.hex)
/-- `urn:ietf:params:scim:{type}:{name}{:other}` (`urn` and the NID `ietf` in any case); the type is one of
`schemas`, `api`, `param`; the name and the rest are texts that conform to URN syntax.  The prefix up to the
type and the production of names are parameters, to state what the parser accepts. -/
def scimWith (nid name : Lang) : Lang := str "urn:" ⬝ nid ⬝ (fun w => w = lit ":params:scim:") ⬝
  (fun w => w = lit "schemas" ∨ w = lit "api" ∨ w = lit "param") ⬝ str ":" ⬝ name ⬝ optional (str ":" ⬝ urnSyntax)
/-- The URNs of RFC 7643. -/
def scim : Lang := scimWith (str "ietf") urnSyntax

end R7643

/-- Every percent sign is followed by two hexadecimal digits. -/
def HexEscapes (s : Bytes) : Prop := ∀ a b, s = a ++ 37 :: b → ∃ x y t, b = x :: y :: t ∧ HEXDIG [x] ∧ HEXDIG [y]

end Urn.Rfc
