import Verif.GoClient
import Verif.Spec
/-!
# What a client sees, in terms of the grammars

The vocabulary of C74: a client of the text of the package calls it and gets values.  The statements use the interpreter, the Go
functions of `GoClient.lean` and the grammars of `Spec.lean`, not the model.
-/
set_option autoImplicit false
namespace Urn.GoLang
open Spec

/-- These calls, one after the other, return these values. -/
def Returns (P C : Prog) (X : Ext) (h : Heap) (ss : List Step) (vss : List (List Val)) : Prop :=
  ∃ R h', Does (fun n => runText P C X n ss {} h) (vss, R, h')

/-- All that a client can ask its `p`-th URN. -/
def ask (p : Nat) : List Step :=
  [.getID p, .getSS p, .stringOf p, .rfc p, .isSCIM p, .scimOf p, .rComponent p, .qComponent p, .fComponent p]

/-- The identifier and the specific string of a text, by the grammar of the mode.  (In RFC 2141 mode without the texts of the
defect of C05.) -/
inductive Splits : ParsingMode → Bytes → Bytes → Bytes → Prop where
  | rfc2141 {s pre nid nss : Bytes} : Urn2141 s pre nid nss → ¬ ((s[4]? = some 117 ∨ s[4]? = some 85) ∧ s[7]? = some 58) →
      Splits RFC2141Only s nid nss
  | rfc7643 {s pre kw name tail other : Bytes} {ty : SchemaType} : UrnScim s pre kw ty name tail other →
      Splits RFC7643Only s (lit "ietf:params:scim") (kw ++ 58 :: (name ++ tail))
  | rfc8141 {s pre nid nss : Bytes} {r q f : Option Bytes} : Urn8141 s pre nid nss r q f → Splits RFC8141Only s nid nss

/-- What `String` returns for the parts of an RFC 8141 URN: the text again, without a `#` at the end and (a defect, C14) with the
first three letters of an identifier that begins with `urn-` in place of the prefix. -/
def text8141 (pre nid nss : Bytes) (r q f : Option Bytes) : Bytes :=
  (if lowerAll (nid.take 4) = lit "urn-" then nid.take 3 else pre) ++ 58 :: nid ++ 58 :: nss ++ opt (lit "?+") r ++ opt (lit "?=") q ++
    match f with
    | none | some [] => []
    | some (c :: w) => 35 :: c :: w

end Urn.GoLang
