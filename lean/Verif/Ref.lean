import Verif.Sim
/-!
# A reference parser

A recursive descent description of what `Parse` computes, for every start state and every
parsing mode, with the exact error and column of every rejection.  It does not mention the
transition tables.  `Verif/Run*.lean` prove that the automaton computes exactly this function.
-/
namespace Urn
open Spec

/-- The two effects of the parsing mode on a run: whether malformed escapes get their own error,
and whether the reserved word look-ahead is performed. -/
structure Flags where
  hx : Bool
  chk : Bool

/-- The flags of a parsing mode. -/
def flagsOf (mode : ParsingMode) : Flags :=
  ⟨decide (mode = RFC2141Only ∨ mode = RFC8141Only), decide (mode ≠ RFC8141Only)⟩

/-- What `Parse` returns. -/
abbrev Res := Option URN × Option Err

/-- Rejection at a position. -/
def bad (k : ErrKind) (p : Nat) : Res := (none, some ⟨k, p⟩)

/-- Read a fixed pattern; the state is the number of bytes read. -/
def litStep (pat : List (UInt8 → Bool)) (i : Nat) (c : UInt8) : Option Nat :=
  match pat[i]? with
  | some f => if f c then some (i + 1) else none
  | none => none

/-- `urn:` in any case. -/
def urnPat : List (UInt8 → Bool) :=
  [fun c => lower c == 117, fun c => lower c == 114, fun c => lower c == 110, fun c => c == 58]

/-- The prefix, common to the three grammars; `k` gets the prefix and the rest. -/
def refPrefix (s : Bytes) (k : Bytes → Bytes → Res) : Res :=
  let x := munch (litStep urnPat) 0 s
  if x.1 = 4 then k (s.take 3) x.2.2 else bad .pfx x.1

/-- Does the identifier look like it starts with the reserved word followed by a colon?  The code
only looks at the first and at the fourth byte. -/
def clash (rest : Bytes) : Bool := (rest.head?.map lower == some 117) && rest[3]? == some 58

/-! ## Percent escapes -/

/-- Position inside an escape. -/
inductive Esc where
  | plain | hex1 | hex2
  deriving DecidableEq, Repr

/-- Read one byte. -/
def Esc.adv : Esc → UInt8 → Esc
  | .plain, c => if c = 37 then .hex1 else .plain
  | .hex1, _ => .hex2
  | .hex2, _ => .plain

/-- Offsets of the upper case letters inside escapes. -/
def ups : Esc → Nat → Bytes → List Int
  | _, _, [] => []
  | h, k, c :: w => (if h ≠ .plain ∧ isUpper c = true then [(k : Int)] else []) ++ ups (h.adv c) (k + 1) w

/-- Lower case the letters inside escapes. -/
def lowerGo : Esc → Bytes → Bytes
  | _, [] => []
  | h, c :: w => (if h ≠ .plain then lower c else c) :: lowerGo (h.adv c) w

/-- Scanner for a sequence of characters and escapes. -/
inductive Nss where
  | start | plain | ah | h1 | h2
  deriving DecidableEq, Repr

/-- Scanner step: `first` is the class of the first character, `cls` of the others. -/
def nssStep (first cls : UInt8 → Bool) : Nss → UInt8 → Option Nss
  | .start, c => if c = 37 then some .h1 else if first c then some .plain else none
  | .plain, c | .ah, c => if c = 37 then some .h1 else if cls c then some .plain else none
  | .h1, c => if isAlnum c then some .h2 else none
  | .h2, c => if isAlnum c then some .ah else none

/-- The scanner has read a complete, non-empty sequence. -/
def Nss.ok : Nss → Bool
  | .plain | .ah => true
  | _ => false

/-- The error kind depends on whether the scanner is in or just after an escape. -/
def nssErr (hx : Bool) (k : ErrKind) : Nss → ErrKind
  | .ah | .h1 | .h2 => if hx then .hex else k
  | _ => k

/-! ## RFC 2141 -/

/-- Scanner of RFC 2141 identifiers: number of characters, or progress inside the word `urn`. -/
inductive N2 where
  | start | chars (k : Nat) | u1 | u2 | u3
  deriving DecidableEq, Repr

/-- Scanner step. -/
def nid2Step : N2 → UInt8 → Option N2
  | .start, c => if isAlnum c then (if lower c = 117 then some .u1 else some (.chars 1)) else none
  | .chars k, c => if isNidChar c ∧ k < 32 then some (.chars (k + 1)) else none
  | .u1, c => if isNidChar c then (if lower c = 114 then some .u2 else some (.chars 2)) else none
  | .u2, c => if isNidChar c then (if lower c = 110 then some .u3 else some (.chars 3)) else none
  | .u3, c => if isNidChar c then some (.chars 4) else none

/-- May the identifier end here? -/
def N2.canEnd : N2 → Bool
  | .chars _ | .u1 | .u2 => true
  | _ => false

/-- The namespace specific string, which starts at `b`. -/
def refNss2141 (hx : Bool) (pre nid nss : Bytes) (b : Nat) : Res :=
  let y := munch (nssStep isSss isSss) .start nss
  if y.2.2 = [] ∧ y.1.ok then
    (some { «prefix» := pre, ID := nid, SS := nss, norm := lowerGo .plain nss, kind := .RFC2141,
            tolower := ups .plain 0 nss }, none)
  else bad (nssErr hx .specificString y.1) (b + y.2.1.length)

/-- The identifier, which starts at 4. -/
def refNid2141 (fl : Flags) (pre rest : Bytes) : Res :=
  if fl.chk ∧ clash rest then bad .noUrnWithinID 7
  else
    let x := munch nid2Step .start rest
    match x.2.2 with
    | [] => bad .identifier (4 + x.2.1.length)
    | c :: nss =>
        if c = 58 ∧ x.1.canEnd then refNss2141 fl.hx pre x.2.1 nss (4 + x.2.1.length + 1)
        else bad .identifier (4 + x.2.1.length)

/-- Parse started in the entry state of RFC 2141. -/
def ref2141 (fl : Flags) (s : Bytes) : Res := refPrefix s (refNid2141 fl)

/-! ## SCIM -/

/-- A literal, as a pattern. -/
def litPat (w : Bytes) : List (UInt8 → Bool) := w.map (fun a c => c == a)

/-- The part after the name and its colon. -/
def refScimOther (hx : Bool) (pre kw : Bytes) (ty : SchemaType) (name other : Bytes) (b : Nat) : Res :=
  let y := munch (nssStep isSss isSss) .start other
  if y.2.2 = [] then
    if y.1.ok then
      (some { «prefix» := pre, ID := lit "ietf:params:scim",
              SS := kw ++ 58 :: (name ++ 58 :: other),
              norm := kw ++ 58 :: (name ++ 58 :: lowerGo .plain other),
              kind := .RFC7643,
              scim := some { Typ := ty, Name := name, Other := other, pos := b },
              tolower := ups .plain (kw.length + 1 + name.length + 1) other }, none)
    else if hx ∧ y.1 ≠ .start then bad .hex (b + y.2.1.length)
    else (none, some ⟨.scimOtherIncomplete, ((b + y.2.1.length : Nat) : Int) - 1⟩)
  else bad (nssErr hx .scimOther y.1) (b + y.2.1.length)

/-- Scanner of SCIM names; the state says whether a character has been read. -/
def nameStep (_ : Bool) (c : UInt8) : Option Bool := if isAlnum c then some true else none

/-- The name, which starts at `b`. -/
def refScimName (hx : Bool) (pre kw : Bytes) (ty : SchemaType) (rest : Bytes) (b : Nat) : Res :=
  let z := munch nameStep false rest
  if z.1 then
    match z.2.2 with
    | [] =>
      (some { «prefix» := pre, ID := lit "ietf:params:scim",
              SS := kw ++ 58 :: rest, norm := kw ++ 58 :: rest,
              kind := .RFC7643, scim := some { Typ := ty, Name := rest, Other := [], pos := b },
              tolower := [] }, none)
    | c :: other =>
      if c = 58 then refScimOther hx pre kw ty z.2.1 other (b + z.2.1.length + 1)
      else bad .scimName (b + z.2.1.length)
  else bad .scimName b

/-- The keyword announced by the first byte. -/
def kwOf (c : UInt8) : Option (Bytes × SchemaType) :=
  if c = 97 then some (lit "api", SchemaType.API)
  else if c = 112 then some (lit "param", SchemaType.Param)
  else if c = 115 then some (lit "schemas", SchemaType.Schemas)
  else none

/-- The type, which starts at 21. -/
def refScimType (hx : Bool) (pre rest : Bytes) : Res :=
  match rest.head?.bind kwOf with
  | none => bad .scimType 21
  | some (kw, ty) =>
      let y := munch (litStep (litPat (kw ++ lit ":"))) 0 rest
      if y.1 = kw.length + 1 then refScimName hx pre kw ty y.2.2 (21 + kw.length + 1)
      else bad .scimType (21 + y.1)

/-- The namespace, which starts at 4. -/
def refScimNs (hx : Bool) (pre rest : Bytes) : Res :=
  let x := munch (litStep (litPat (lit "ietf:params:scim:"))) 0 rest
  if x.1 = 17 then refScimType hx pre x.2.2 else bad .scimNamespace (4 + x.1)

/-- Parse started in the entry state of RFC 7643. -/
def refScim (fl : Flags) (s : Bytes) : Res := refPrefix s (refScimNs fl.hx)

/-! ## RFC 8141 -/

/-- The fragment, which starts at `b`, after everything else has been stored in `o`. -/
def refF (hx : Bool) (o : URN) (rest : Bytes) (b : Nat) : Res :=
  let y := munch (nssStep isPcharSlashQ isPcharSlashQ) .start rest
  if y.2.2 = [] ∧ (y.1 = .start ∨ y.1.ok) then
    (some { o with fComponent := rest, kind := .RFC8141, tolower := o.tolower ++ ups .plain 0 rest }, none)
  else if hx ∧ y.1 ≠ .start ∧ y.1 ≠ .plain then bad .hex (b + y.2.1.length)
  else (none, none)

/-- Scanner of q-components.  `firstR`, `fh1` and `fh2` are used for the first character after an
r-component; `qm` is after a question mark and `qe` after `?=`. -/
inductive Q where
  | first | firstR | fh1 | fh2 | plain | ah | h1 | h2 | qm | qe
  deriving DecidableEq, Repr

/-- Scanner step. -/
def qStep : Q → UInt8 → Option Q
  | .first, c => if c = 37 then some .h1 else if isPchar c then some .plain else none
  | .firstR, c => if c = 37 then some .fh1 else if isPchar c then some .plain else none
  | .fh1, c => if isAlnum c then some .fh2 else none
  | .fh2, c => if isAlnum c then some .ah else none
  | .h1, c => if isAlnum c then some .h2 else none
  | .h2, c => if isAlnum c then some .ah else none
  | .plain, c | .ah, c =>
      if c = 37 then some .h1 else if c = 63 then some .qm
      else if isPcharSlash c then some .plain else none
  | .qm, c =>
      if c = 37 then some .h1 else if c = 63 then some .qm else if c = 61 then some .qe
      else if isPcharSlash c then some .plain else none
  | .qe, c => if c = 47 then some .plain else none

/-- May the q-component end here? -/
def Q.canEnd : Q → Bool
  | .plain | .ah | .qm => true
  | _ => false

/-- The bytes after which a forbidden `?+` or `?=` is reported as a second component. -/
def startsAgain (c : UInt8) : Bool := isPchar c || c == 37 || c == 63 || c == 35

/-- A q-component that starts with a question mark, which is before `b`. -/
def refQQ (rest : Bytes) (b : Nat) : Res :=
  match rest with
  | [] => bad .malformedQComp8141 b
  | c :: rest' =>
      if c = 61 then
        match rest' with
        | [] => bad .qComponentStart8141 (b + 1)
        | d :: _ => if startsAgain d then bad .qComponentStart8141 (b + 1) else bad .malformedQComp8141 (b + 1)
      else bad .malformedQComp8141 b

/-- Errors of the q-component scanner on a byte it does not accept (or at the end). -/
def qErr (hx : Bool) : Q → ErrKind
  | .fh1 | .fh2 => if hx then .hex else .malformedRComp8141
  | .ah | .h1 | .h2 => if hx then .hex else .malformedQComp8141
  | .first | .firstR | .plain | .qm | .qe => .malformedQComp8141

/-- The q-component, which starts at `b`. -/
def refQ (hx : Bool) (o : URN) (q0 : Q) (rest : Bytes) (b : Nat) : Res :=
  let y := munch qStep q0 rest
  let o' := { o with qComponent := y.2.1, qStart := true, tolower := o.tolower ++ ups .plain 0 y.2.1 }
  match y.2.2 with
  | [] =>
      if y.1.canEnd then (some { o' with kind := .RFC8141 }, none)
      else if y.1 = .qe then bad .qComponentStart8141 (b + y.2.1.length)
      else bad (qErr hx y.1) (b + y.2.1.length)
  | c :: t =>
      if c = 35 ∧ y.1.canEnd then refF hx o' t (b + y.2.1.length + 1)
      else if y.1 = .first ∧ c = 63 then refQQ t (b + 1)
      else if y.1 = .qe ∧ startsAgain c then bad .qComponentStart8141 (b + y.2.1.length)
      else bad (qErr hx y.1) (b + y.2.1.length)

/-- Scanner of r-components; `qm` is after a question mark, `qp` after `?+`, `qe` after `?=`. -/
inductive R where
  | first | plain | ah | h1 | h2 | qm | qp | qe
  deriving DecidableEq, Repr

/-- Scanner step. -/
def rStep : R → UInt8 → Option R
  | .first, c => if c = 37 then some .h1 else if isPchar c then some .plain else none
  | .h1, c => if isAlnum c then some .h2 else none
  | .h2, c => if isAlnum c then some .ah else none
  | .plain, c | .ah, c =>
      if c = 37 then some .h1 else if c = 63 then some .qm
      else if isPcharSlash c then some .plain else none
  | .qm, c =>
      if c = 37 then some .h1 else if c = 63 then some .qm
      else if c = 43 then some .qp else if c = 61 then some .qe
      else if isPcharSlash c then some .plain else none
  | .qp, c => if c = 47 then some .plain else none
  | .qe, c => if c = 47 then some .plain else if c = 63 then some .qm else none

/-- May the r-component end here? -/
def R.canEnd : R → Bool
  | .plain | .ah | .qm | .qe => true
  | _ => false

/-- Errors of the r-component scanner. -/
def rErr (hx : Bool) : R → ErrKind
  | .ah | .h1 | .h2 => if hx then .hex else .malformedRComp8141
  | _ => .malformedRComp8141

/-- An r-component that starts with a question mark, which is before `b`. -/
def refRQ (rest : Bytes) (b : Nat) : Res :=
  match rest with
  | [] => bad .malformedRComp8141 b
  | c :: rest' =>
      if c = 43 then
        match rest' with
        | [] => bad .rComponentStart8141 (b + 1)
        | d :: _ => if startsAgain d then bad .rComponentStart8141 (b + 1) else bad .malformedRComp8141 (b + 1)
      else bad .malformedRComp8141 b

/-- The r-component, which starts at `b`. -/
def refR (hx : Bool) (o : URN) (rest : Bytes) (b : Nat) : Res :=
  let y := munch rStep .first rest
  let o' := { o with rComponent := y.2.1, rStart := true, tolower := o.tolower ++ ups .plain 0 y.2.1 }
  match y.2.2 with
  | [] =>
      if y.1.canEnd then (some { o' with kind := .RFC8141 }, none)
      else if y.1 = .qp then bad .rComponentStart8141 (b + y.2.1.length)
      else bad (rErr hx y.1) (b + y.2.1.length)
  | c :: t =>
      if c = 35 ∧ y.1.canEnd then refF hx o' t (b + y.2.1.length + 1)
      else if y.1 = .first ∧ c = 63 then refRQ t (b + 1)
      else if y.1 = .qp ∧ startsAgain c then bad .rComponentStart8141 (b + y.2.1.length)
      else if y.1 = .qe ∧ (isPchar c ∨ c = 37) then
        refQ hx { o' with rComponent := y.2.1.take (y.2.1.length - 2) } .firstR (c :: t) (b + y.2.1.length)
      else bad (rErr hx y.1) (b + y.2.1.length)

/-- What follows a question mark at the end of the specific string. -/
def refRQComp (hx : Bool) (o : URN) (rest : Bytes) (b : Nat) : Res :=
  match rest with
  | [] => (none, none)
  | c :: t =>
      if c = 43 then refR hx o t (b + 1)
      else if c = 61 then refQ hx o .first t (b + 1)
      else (none, none)

/-- The specific string, which starts at `b`. -/
def refNss8141 (hx : Bool) (pre nid rest : Bytes) (b : Nat) : Res :=
  let y := munch (nssStep isPchar isPcharSlash) .start rest
  let o : URN := { «prefix» := pre, ID := nid, SS := y.2.1, norm := lowerGo .plain y.2.1,
                   tolower := ups .plain 0 y.2.1 }
  match y.2.2 with
  | [] =>
      if y.1.ok then (some { o with kind := .RFC8141 }, none)
      else bad (nssErr hx .specificString8141 y.1) (b + y.2.1.length)
  | c :: t =>
      if c = 35 ∧ y.1.ok then refF hx o t (b + y.2.1.length + 1)
      else if c = 63 ∧ y.1.ok then refRQComp hx o t (b + y.2.1.length + 1)
      else bad (nssErr hx .specificString8141 y.1) (b + y.2.1.length)

/-- Scanner of RFC 8141 identifiers: number of characters read and whether the last one is a dash,
or progress inside `urn-`.  The flag records that the identifier starts with `urn-`. -/
inductive N8 where
  | start | al (inf : Bool) (k : Nat) | da (inf : Bool) (k : Nat) | u1 | u2 | u3 | u4
  deriving DecidableEq, Repr

/-- Scanner step. -/
def nid8Step : N8 → UInt8 → Option N8
  | .start, c => if isAlnum c then (if lower c = 117 then some .u1 else some (.al false 1)) else none
  | .al i k, c | .da i k, c =>
      if c = 45 then (if k < 31 then some (.da i (k + 1)) else none)
      else if isAlnum c ∧ k < 32 then some (.al i (k + 1)) else none
  | .u1, c =>
      if c = 45 then some (.da false 2)
      else if isAlnum c then (if lower c = 114 then some .u2 else some (.al false 2)) else none
  | .u2, c =>
      if c = 45 then some (.da false 3)
      else if isAlnum c then (if lower c = 110 then some .u3 else some (.al false 3)) else none
  | .u3, c =>
      if c = 45 then some .u4
      else if isAlnum c then some (.al false 4) else none
  | .u4, c =>
      if c = 45 then some (.da true 5)
      else if isDigit c ∧ c ≠ 48 then some (.al true 5) else none

/-- May the identifier end here? -/
def N8.canEnd : N8 → Bool
  | .al _ k => decide (2 ≤ k)
  | .u2 | .u3 => true
  | _ => false

/-- Does the identifier start with `urn-`? -/
def N8.inf : N8 → Bool
  | .al i _ | .da i _ => i
  | .u4 => true
  | _ => false

/-- The identifier, which starts at 4. -/
def refNid8141 (fl : Flags) (pre rest : Bytes) : Res :=
  if fl.chk ∧ clash rest then bad .noUrnWithinID 7
  else
    let x := munch nid8Step .start rest
    match x.2.2 with
    | [] => bad .identifier8141 (4 + x.2.1.length)
    | c :: nss =>
        if c = 58 ∧ x.1.canEnd then
          refNss8141 fl.hx (if x.1.inf then x.2.1.take 3 else pre) x.2.1 nss (4 + x.2.1.length + 1)
        else if x.1 = .u4 ∧ isAlnum c then bad .informalID8141 7
        else bad .identifier8141 (4 + x.2.1.length)

/-- Parse started in the entry state of RFC 8141. -/
def ref8141 (fl : Flags) (s : Bytes) : Res := refPrefix s (refNid8141 fl)

/-- Parse started in any of the possible states: 0 is the state of a machine whose options only
selected an unknown mode. -/
def refFrom (start : Nat) (mode : ParsingMode) (s : Bytes) : Res :=
  if start = 1 then ref2141 (flagsOf mode) s
  else if start = 44 then refScim (flagsOf mode) s
  else if start = 83 then ref8141 (flagsOf mode) s
  else (none, none)

end Urn
