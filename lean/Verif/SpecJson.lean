import Verif.Go
/-!
# JSON texts of strings

The ways to write an ASCII string in JSON (RFC 8259 section 7), without reference to the model of `encoding/json`.
-/
set_option autoImplicit false
namespace Urn.SpecJson

/-- `c` is a hexadecimal digit with value `v`. -/
def Hex (c : UInt8) (v : Nat) : Prop :=
  (c.toNat = 48 + v ∧ v ≤ 9) ∨ ((c.toNat = 55 + v ∨ c.toNat = 87 + v) ∧ 10 ≤ v ∧ v ≤ 15)

/-- The escapes of two characters: the one after the backslash, and what it stands for. -/
def shortEscapes : List (UInt8 × UInt8) :=
  [(34, 34), (92, 92), (47, 47), (98, 8), (102, 12), (110, 10), (114, 13), (116, 9)]

/-- What may stand between the quotes for an ASCII string: each character is written as itself (unless it is a
control character, a quote or a backslash), by an escape of two characters, or as `\u00XX`. -/
inductive Spelling : Bytes → Bytes → Prop where
  | nil : Spelling [] []
  | char {c : UInt8} {t w : Bytes} : 32 ≤ c → c < 128 → c ≠ 34 → c ≠ 92 → Spelling t w → Spelling (c :: t) (c :: w)
  | short {e x : UInt8} {t w : Bytes} : (e, x) ∈ shortEscapes → Spelling t w → Spelling (92 :: e :: t) (x :: w)
  | hex {a b x : UInt8} {u v : Nat} {t w : Bytes} : Hex a u → Hex b v → x.toNat = 16 * u + v → x < 128 → Spelling t w →
      Spelling (92 :: 117 :: 48 :: 48 :: a :: b :: t) (x :: w)

/-- Space, tab, newline and carriage return. -/
def Blank (w : Bytes) : Prop := ∀ c ∈ w, c = 32 ∨ c = 9 ∨ c = 10 ∨ c = 13

/-- `t` is a JSON text for the ASCII string `w`. -/
def JsonText (t w : Bytes) : Prop :=
  ∃ before body after, Blank before ∧ Blank after ∧ Spelling body w ∧ t = before ++ 34 :: (body ++ 34 :: after)

/-- `t` is `null`. -/
def JsonNull (t : Bytes) : Prop := ∃ before after, Blank before ∧ Blank after ∧ t = before ++ (lit "null" ++ after)

end Urn.SpecJson
