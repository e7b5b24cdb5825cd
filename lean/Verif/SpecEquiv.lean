import Verif.SpecRfc
/-!
# Equivalence of URNs in the RFCs

RFC 2141, section 5, and RFC 8141, section 3.1: two URNs are equivalent if they are the same octet by octet after the case of the scheme,
of the NID and of the percent escapes has been normalised; in RFC 8141 the components are left out.
-/
set_option autoImplicit false
namespace Urn.Rfc
open Spec

/-- The character in upper case. -/
def upper (c : UInt8) : UInt8 := if 97 ≤ c.toNat && c.toNat ≤ 122 then c - 32 else c

/-- The two characters after each percent sign in upper case. -/
def upperEsc : Bytes → Bytes
  | 37 :: a :: b :: w => 37 :: upper a :: upper b :: upperEsc w
  | c :: w => c :: upperEsc w
  | [] => []

/-- The normalised form: the scheme and the NID in lower case, the escapes in upper case. -/
def canon (pre nid nss : Bytes) : Bytes := lowerAll pre ++ 58 :: lowerAll nid ++ 58 :: upperEsc nss

/-- `w` is the normalised form of the URN `s` of RFC 2141. -/
def R2141.Canon (s w : Bytes) : Prop :=
  ∃ pre nid nss, s = pre ++ 58 :: nid ++ 58 :: nss ∧ str "urn" pre ∧ R2141.NID nid ∧ R2141.NSS nss ∧ w = canon pre nid nss

/-- Lexical equivalence of RFC 2141, section 5. -/
def R2141.equivalent (s t : Bytes) : Prop := ∃ w, R2141.Canon s w ∧ R2141.Canon t w

/-- `w` is the normalised form of the assigned name that `s` begins with, and that ends where a component begins. -/
def R8141.Canon (s w : Bytes) : Prop :=
  ∃ pre nid nss rest, s = pre ++ 58 :: nid ++ 58 :: nss ++ rest ∧ str "urn" pre ∧ R8141.NID nid ∧ R8141.NSS nss ∧
    (rest = [] ∨ rest.head? = some 63 ∨ rest.head? = some 35) ∧ w = canon pre nid nss

/-- URN-equivalence of RFC 8141, section 3.1. -/
def R8141.equivalent (s t : Bytes) : Prop := ∃ w, R8141.Canon s w ∧ R8141.Canon t w

end Urn.Rfc
