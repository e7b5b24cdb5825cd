import Verif.Urn
import Verif.Sim
/-!
# encoding/json on strings

`json.Marshal` of a string and `json.Unmarshal` into a string, as in Go's package `encoding/json`.  It is not part of
go-urn; most theorems about JSON take it as a parameter with the hypothesis `JsonOk`.  There is no copy of Go's
library here to cite; this follows its functions `appendString` (Go 1.22 and later: `\b` and `\f` are written so and
not as `\u0008` and `\u000c`), `unquote`, `getu4`, `utf8.DecodeRune`, `utf8.EncodeRune` and `utf16.DecodeRune`.
-/
set_option autoImplicit false
namespace Urn

/-- What is assumed of `encoding/json`: decoding inverts encoding on strings of printable ASCII. -/
def JsonOk (j : JsonCodec) : Prop := ∀ w : Bytes, (∀ c ∈ w, 33 ≤ c ∧ c ≤ 126) → j.unmarshal (j.marshal w) = some w

namespace Json

/-! ## UTF-8 -/

/-- U+FFFD -/
def replacement : Nat := 0xFFFD

/-- A continuation byte. -/
def isCont (c : UInt8) : Bool := 128 ≤ c && c ≤ 191

/-- The range of the second byte after `a` (`acceptRanges`). -/
def second (a b : UInt8) : Bool :=
  (if a = 224 then 160 else if a = 240 then 144 else 128) ≤ b && b ≤ (if a = 237 then 159 else if a = 244 then 143 else 191)

/-- `utf8.DecodeRune` of `a :: t`: the rune and its size; `(U+FFFD, 1)` if the encoding is invalid. -/
def decodeRune (a : UInt8) (t : Bytes) : Nat × Nat :=
  if a < 128 then (a.toNat, 1)
  else if 194 ≤ a ∧ a ≤ 223 then
    match t with
    | b :: _ => if second a b then ((a.toNat - 192) * 64 + (b.toNat - 128), 2) else (replacement, 1)
    | _ => (replacement, 1)
  else if 224 ≤ a ∧ a ≤ 239 then
    match t with
    | b :: c :: _ =>
        if second a b && isCont c then (((a.toNat - 224) * 64 + (b.toNat - 128)) * 64 + (c.toNat - 128), 3) else (replacement, 1)
    | _ => (replacement, 1)
  else if 240 ≤ a ∧ a ≤ 244 then
    match t with
    | b :: c :: d :: _ =>
        if second a b && isCont c && isCont d then
          ((((a.toNat - 240) * 64 + (b.toNat - 128)) * 64 + (c.toNat - 128)) * 64 + (d.toNat - 128), 4)
        else (replacement, 1)
    | _ => (replacement, 1)
  else (replacement, 1)

/-- `utf8.EncodeRune` of a valid rune. -/
def encodeRune (n : Nat) : Bytes :=
  if n < 128 then [UInt8.ofNat n]
  else if n < 2048 then [UInt8.ofNat (192 + n / 64), UInt8.ofNat (128 + n % 64)]
  else if n < 65536 then [UInt8.ofNat (224 + n / 4096), UInt8.ofNat (128 + n / 64 % 64), UInt8.ofNat (128 + n % 64)]
  else [UInt8.ofNat (240 + n / 262144), UInt8.ofNat (128 + n / 4096 % 64), UInt8.ofNat (128 + n / 64 % 64), UInt8.ofNat (128 + n % 64)]

/-! ## Encoding -/

/-- A lower case hexadecimal digit. -/
def hexDigit (n : UInt8) : UInt8 := if n < 10 then 48 + n else 87 + n

/-- An ASCII byte of a string, as `json.Marshal` writes it (HTML escaping is on). -/
def encodeByte (c : UInt8) : Bytes :=
  if c = 34 then [92, 34]
  else if c = 92 then [92, 92]
  else if c = 8 then [92, 98]
  else if c = 12 then [92, 102]
  else if c = 10 then [92, 110]
  else if c = 13 then [92, 114]
  else if c = 9 then [92, 116]
  else if c < 32 ∨ c = 38 ∨ c = 60 ∨ c = 62 then [92, 117, 48, 48, hexDigit (c / 16), hexDigit (c % 16)]
  else [c]

/-- The rest of a string, with the closing quote; the first `skip` bytes belong to a rune already written. -/
def encodeBody : Nat → Bytes → Bytes
  | _, [] => [34]
  | skip + 1, _ :: w => encodeBody skip w
  | 0, c :: w =>
      if c < 128 then encodeByte c ++ encodeBody 0 w
      else
        let (r, size) := decodeRune c w
        if r = replacement ∧ size = 1 then lit "\\ufffd" ++ encodeBody 0 w
        else if r = 0x2028 ∨ r = 0x2029 then lit "\\u202" ++ hexDigit (UInt8.ofNat (r % 16)) :: encodeBody (size - 1) w
        else (c :: w).take size ++ encodeBody (size - 1) w

/-- `json.Marshal` of a string. -/
def marshal (w : Bytes) : Bytes := 34 :: encodeBody 0 w

/-! ## Decoding -/

/-- The value of a hexadecimal digit. -/
def hexVal (c : UInt8) : Option Nat :=
  if 48 ≤ c ∧ c ≤ 57 then some (c.toNat - 48)
  else if 97 ≤ c ∧ c ≤ 102 then some (c.toNat - 87)
  else if 65 ≤ c ∧ c ≤ 70 then some (c.toNat - 55)
  else none

/-- The value of four hexadecimal digits. -/
def hex4 : Bytes → Option Nat
  | a :: b :: c :: d :: _ => do
      let a ← hexVal a; let b ← hexVal b; let c ← hexVal c; let d ← hexVal d
      pure (((a * 16 + b) * 16 + c) * 16 + d)
  | _ => none

/-- `getu4`: the value of `\uXXXX` at the beginning of a text. -/
def getu4 : Bytes → Option Nat
  | 92 :: 117 :: w => hex4 w
  | _ => none

/-- `utf16.DecodeRune`; `none` if the two are not a surrogate pair. -/
def decodePair (a b : Nat) : Option Nat :=
  if 0xD800 ≤ a ∧ a < 0xDC00 ∧ 0xDC00 ≤ b ∧ b < 0xE000 then some ((a - 0xD800) * 1024 + (b - 0xDC00) + 0x10000) else none

/-- `utf16.IsSurrogate` -/
def isSurrogate (n : Nat) : Bool := 0xD800 ≤ n && n < 0xE000

/-- The escapes of two characters. -/
def short (c : UInt8) : Option UInt8 :=
  if c = 34 ∨ c = 92 ∨ c = 47 then some c
  else if c = 98 then some 8 else if c = 102 then some 12 else if c = 110 then some 10
  else if c = 114 then some 13 else if c = 116 then some 9 else none

/-- The rest of a JSON string after the opening quote: the decoded string and what follows the closing quote.  The
first `skip` bytes have been decoded already. -/
def decodeBody : Nat → Bytes → Option (Bytes × Bytes)
  | _, [] => none
  | skip + 1, _ :: w => decodeBody skip w
  | 0, c :: w =>
      if c = 34 then some ([], w)
      else if c < 32 then none
      else if c = 92 then
        match w with
        | [] => none
        | e :: r =>
            if e = 117 then
              match hex4 r with
              | none => none
              | some n =>
                  if isSurrogate n then
                    match (getu4 (r.drop 4)).bind (decodePair n) with
                    | some m => (decodeBody 11 w).map fun x => (encodeRune m ++ x.1, x.2)
                    | none => (decodeBody 5 w).map fun x => (encodeRune replacement ++ x.1, x.2)
                  else (decodeBody 5 w).map fun x => (encodeRune n ++ x.1, x.2)
            else
              match short e with
              | none => none
              | some y => (decodeBody 1 w).map fun x => (y :: x.1, x.2)
      else if c < 128 then (decodeBody 0 w).map fun x => (c :: x.1, x.2)
      else
        let (r, size) := decodeRune c w
        (decodeBody (size - 1) w).map fun x => (encodeRune r ++ x.1, x.2)

/-- White space. -/
def isSpace (c : UInt8) : Bool := c == 32 || c == 9 || c == 10 || c == 13

/-- `json.Unmarshal` into a string variable that is empty before: a string literal gives its value, `null` leaves
the variable, everything else is an error. -/
def unmarshal (t : Bytes) : Option Bytes :=
  match t.dropWhile isSpace with
  | [] => none
  | c :: w =>
      if c = 34 then
        match decodeBody 0 w with
        | some (r, rest) => if rest.all isSpace then some r else none
        | none => none
      else if (lit "null").isPrefixOf (c :: w) ∧ ((c :: w).drop 4).all isSpace then some []
      else none

/-- The codec. -/
def codec : JsonCodec := ⟨marshal, unmarshal⟩

example : marshal (lit "urn:a:b&c") = lit "\"urn:a:b\\u0026c\"" := by decide
example : marshal [65, 0xC3, 0xA9, 0xC3, 0xE2, 0x80, 0xA8] = [34, 65, 0xC3, 0xA9] ++ lit "\\ufffd\\u2028\"" := by decide
example : unmarshal (lit " \"urn:a\\u003ab\\/\" ") = some (lit "urn:a:b/") := by decide
example : unmarshal (lit "\"\\ud83d\\ude00\\ud83d!\"") = some [0xF0, 0x9F, 0x98, 0x80, 0xEF, 0xBF, 0xBD, 33] := by decide
example : unmarshal (lit "12") = none ∧ unmarshal (lit "null") = some [] ∧ unmarshal (lit "\"a\" b") = none ∧
    unmarshal (lit "\"\\'\"") = none ∧ unmarshal (lit "nulls") = none := by decide

end Json
end Urn
