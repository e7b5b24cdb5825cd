import Verif.Spec
import Verif.Machine
/-!
# Specification of error kinds

For every kind of error, what is wrong with the input: written from the error messages
(machine.go:9-27).  Like `Spec.lean`, nothing here mentions the model of the code (only the data type
`ErrKind`, which has one value for each message).
-/
set_option autoImplicit false
namespace Urn.Spec

/-- `s` is `urn:` (in any case) followed by `rest`. -/
def HasPrefix (s rest : Bytes) : Prop := ∃ pre, IsUrn pre ∧ s = pre ++ 58 :: rest

/-- The first byte of the identifier is `u` or `U`, and the fourth byte after the prefix is a colon. -/
def LooksReserved (s : Bytes) : Prop := (s[4]? = some 117 ∨ s[4]? = some 85) ∧ s[7]? = some 58

/-- `t` does not start with a letter or digit. -/
def NoAlnum (t : Bytes) : Prop := ∀ c, t.head? = some c → isAlnum c = false

/-- `w` goes wrong inside an escape or directly after one: something good, then a percent sign without
two alphanumeric characters, or a complete escape and then a byte that cannot follow. -/
inductive EscFault (good : Bytes → Prop) (stop : UInt8 → Prop) : Bytes → Prop where
  | first {a t : Bytes} : good a → NoAlnum t → EscFault good stop (a ++ 37 :: t)
  | second {a t : Bytes} {x : UInt8} : good a → isAlnum x = true → NoAlnum t → EscFault good stop (a ++ 37 :: x :: t)
  | after {a t : Bytes} {x y c : UInt8} : good a → isAlnum x = true → isAlnum y = true → stop c →
      EscFault good stop (a ++ 37 :: x :: y :: c :: t)

/-- A malformed escape in an RFC 2141 specific string. -/
def EscFault2141 (w : Bytes) : Prop := EscFault (PctSeq isSss) (fun c => isSss c = false ∧ c ≠ 37) w

/-- The text after the prefix and a good identifier. -/
def AfterNid2141 (s w : Bytes) : Prop := ∃ pre nid, IsUrn pre ∧ Nid2141 nid ∧ s = pre ++ 58 :: nid ++ 58 :: w

/-- What each kind of error says about the input, in RFC 2141 mode. -/
def Why2141 (s : Bytes) : ErrKind → Prop
  | .pfx => ¬ ∃ rest, HasPrefix s rest
  | .noUrnWithinID => (∃ rest, HasPrefix s rest) ∧ LooksReserved s
  | .identifier => ∃ rest, HasPrefix s rest ∧ ¬ LooksReserved s ∧ ¬ ∃ nid w, Nid2141 nid ∧ rest = nid ++ 58 :: w
  | .specificString => ∃ w, AfterNid2141 s w ∧ ¬ LooksReserved s ∧ ¬ Nss2141 w ∧ ¬ EscFault2141 w
  | .hex => ∃ w, AfterNid2141 s w ∧ ¬ LooksReserved s ∧ EscFault2141 w
  | _ => False

/-! ## RFC 8141 -/

/-- A malformed escape in a specific string. -/
def EscFaultNss (w : Bytes) : Prop :=
  EscFault (fun a => a = [] ∨ Nss8141 a) (fun c => isPcharSlashQ c = false ∧ c ≠ 37 ∧ c ≠ 35) w

/-- A malformed escape in an r-component (which may not be what looks like the start of a q-component). -/
def EscFaultR (w : Bytes) : Prop :=
  EscFault (fun a => a = [] ∨ RComp a ∧ ¬ ∃ v, a = v ++ lit "?=") (fun c => isPcharSlashQ c = false ∧ c ≠ 37 ∧ c ≠ 35) w

/-- A malformed escape in a q-component. -/
def EscFaultQ (w : Bytes) : Prop :=
  EscFault (fun a => a = [] ∨ QComp a) (fun c => isPcharSlashQ c = false ∧ c ≠ 37 ∧ c ≠ 35) w

/-- A malformed escape in a fragment. -/
def EscFaultF (w : Bytes) : Prop := EscFault Fragment (fun c => isPcharSlashQ c = false ∧ c ≠ 37) w

/-- The end, or a byte with which a component could start or end: a pchar, `%`, `?` or `#`. -/
def Again (t : Bytes) : Prop := t = [] ∨ ∃ c t', t = c :: t' ∧ (isPchar c = true ∨ c = 37 ∨ c = 63 ∨ c = 35)

/-- A second `?+` in an r-component, or one at its start. -/
def AgainR (w : Bytes) : Prop := ∃ v t, w = v ++ lit "?+" ++ t ∧ (v = [] ∨ RComp v) ∧ Again t

/-- A second `?=` in a q-component, or one at its start. -/
def AgainQ (w : Bytes) : Prop := ∃ v t, w = v ++ lit "?=" ++ t ∧ (v = [] ∨ QComp v) ∧ Again t

/-- A good r-component, then the end, a fragment or a q-component. -/
def StartsR (w : Bytes) : Prop :=
  ∃ r x, w = r ++ x ∧ RComp r ∧ (x = [] ∨ (∃ t, x = 35 :: t) ∨ ∃ c t, x = lit "?=" ++ c :: t ∧ (isPchar c = true ∨ c = 37))

/-- A good q-component, then the end or a fragment. -/
def StartsQ (w : Bytes) : Prop := ∃ q x, w = q ++ x ∧ QComp q ∧ (x = [] ∨ ∃ t, x = 35 :: t)

/-- A good specific string, then the end, a fragment or a component. -/
def StartsNss (w : Bytes) : Prop :=
  ∃ n x, w = n ++ x ∧ Nss8141 n ∧ (x = [] ∨ ∃ c t, x = c :: t ∧ (c = 35 ∨ c = 63))

/-- The text after the prefix and a good identifier. -/
def AfterNid8141 (s w : Bytes) : Prop := ∃ pre nid, IsUrn pre ∧ Nid8141 nid ∧ s = pre ++ 58 :: nid ++ 58 :: w

/-- The text after `?+`. -/
def AfterR (s w : Bytes) : Prop := ∃ b pre nid nss, Urn8141 b pre nid nss none none none ∧ s = b ++ lit "?+" ++ w

/-- The text after `?=`, if that starts a q-component: after an r-component it has to be followed by a
pchar or an escape. -/
def AfterQ (s w : Bytes) : Prop :=
  ∃ b pre nid nss r, Urn8141 b pre nid nss r none none ∧ s = b ++ lit "?=" ++ w ∧
    (r ≠ none → ∃ c t, w = c :: t ∧ (isPchar c = true ∨ c = 37))

/-- The text after `#`. -/
def AfterF (s w : Bytes) : Prop := ∃ b pre nid nss r q, Urn8141 b pre nid nss r q none ∧ s = b ++ 35 :: w

/-- An ill-formed informal identifier: `urn-` and then a letter or `0`. -/
def BadInformal (rest : Bytes) : Prop := ∃ p x t, rest = p ++ 45 :: x :: t ∧ IsUrn p ∧ (isAlpha x = true ∨ x = 48)

/-- What each kind of error says about the input, in RFC 8141 mode. -/
def Why8141 (s : Bytes) : ErrKind → Prop
  | .pfx => ¬ ∃ rest, HasPrefix s rest
  | .informalID8141 => ∃ rest, HasPrefix s rest ∧ BadInformal rest
  | .identifier8141 => ∃ rest, HasPrefix s rest ∧ ¬ BadInformal rest ∧ ¬ ∃ nid w, Nid8141 nid ∧ rest = nid ++ 58 :: w
  | .specificString8141 => ∃ w, AfterNid8141 s w ∧ ¬ StartsNss w ∧ ¬ EscFaultNss w
  | .rComponentStart8141 => ∃ w, AfterR s w ∧ AgainR w
  | .malformedRComp8141 => ∃ w, AfterR s w ∧ ¬ StartsR w ∧ ¬ AgainR w ∧ ¬ EscFaultR w
  | .qComponentStart8141 => ∃ w, AfterQ s w ∧ AgainQ w
  | .malformedQComp8141 => ∃ w, AfterQ s w ∧ ¬ StartsQ w ∧ ¬ AgainQ w ∧ ¬ EscFaultQ w
  | .hex => (∃ w, AfterNid8141 s w ∧ EscFaultNss w) ∨ (∃ w, AfterR s w ∧ EscFaultR w) ∨
      (∃ w, AfterQ s w ∧ EscFaultQ w) ∨ (∃ w, AfterF s w ∧ EscFaultF w)
  | _ => False

/-! ## SCIM -/

/-- The text after `urn:ietf:params:scim:`. -/
def AfterScim (s w : Bytes) : Prop := HasPrefix s (lit "ietf:params:scim:" ++ w)

/-- The text after the type and its colon. -/
def AfterType (s w : Bytes) : Prop := ∃ kw ty, ScimType kw ty ∧ AfterScim s (kw ++ lit ":" ++ w)

/-- The text after the name and its colon. -/
def AfterName (s w : Bytes) : Prop := ∃ name, ScimName name ∧ AfterType s (name ++ lit ":" ++ w)

/-- An other part that is empty or breaks off in an escape. -/
def Incomplete (w : Bytes) : Prop :=
  w = [] ∨ ∃ a, PctSeq isSss a ∧ (w = a ++ [37] ∨ ∃ x, isAlnum x = true ∧ w = a ++ [37, x])

/-- What each kind of error says about the input, in RFC 7643 mode. -/
def Why7643 (s : Bytes) : ErrKind → Prop
  | .pfx => ¬ ∃ rest, HasPrefix s rest
  | .scimNamespace => ∃ rest, HasPrefix s rest ∧ ¬ ∃ w, rest = lit "ietf:params:scim:" ++ w
  | .scimType => ∃ w, AfterScim s w ∧ ¬ ∃ kw ty v, ScimType kw ty ∧ w = kw ++ lit ":" ++ v
  | .scimName => ∃ w, AfterType s w ∧ ¬ ∃ name x, ScimName name ∧ w = name ++ x ∧ (x = [] ∨ ∃ v, x = 58 :: v)
  | .scimOther => ∃ w, AfterName s w ∧ ¬ Nss2141 w ∧ ¬ Incomplete w
  | .scimOtherIncomplete => ∃ w, AfterName s w ∧ Incomplete w
  | _ => False

end Urn.Spec
