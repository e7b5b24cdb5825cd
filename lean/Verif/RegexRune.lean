import Verif.Json
/-!
# Regular expressions on runes

What Go's packages `regexp/syntax` and `regexp` do with the two expressions in `/repo/tools`: a reader for the syntax, and a
matcher that goes over the runes of the text, as Go does, not over its bytes.  The documentation of `regexp` defines the match:
of the matches that begin leftmost, the one that a backtracking search would have found first.  `Rx.run` lists the ways to match
at a given place in the order of that search.  There is no copy of Go's library here to cite; this follows `inputBytes.step`,
`Regexp.allMatches` and `Regexp.replaceAll`.
-/
set_option autoImplicit false
namespace Urn.Regex

/-! ## Runes -/

/-- A rune of a text: its code, and the bytes that it was decoded from. -/
structure Rune where
  code : Nat
  bytes : Bytes
  deriving DecidableEq, Repr

/-- `utf8.DecodeRune` again and again; a byte that does not begin a valid encoding is the rune U+FFFD. -/
def runes : Bytes → List Rune
  | [] => []
  | c :: t => ⟨(Json.decodeRune c t).1, c :: t.take ((Json.decodeRune c t).2 - 1)⟩ :: runes (t.drop ((Json.decodeRune c t).2 - 1))
  termination_by s => s.length
  decreasing_by simp only [List.length_drop, List.length_cons]; omega

/-- The bytes of runes. -/
def flat (rs : List Rune) : Bytes := rs.flatMap fun r => r.bytes

/-! ## Expressions -/

/-- A class of characters. -/
inductive Cls where
  /-- `.` without the flag `s`: everything but a newline -/
  | any
  /-- `x`, `\r`, `\n` -/
  | char (n : Nat)
  /-- `[a-zA-Z]`, `\s` -/
  | ranges (rs : List (Nat × Nat))

/-- Whether the rune is in the class. -/
def Cls.has : Cls → Nat → Bool
  | .any, n => n != 10
  | .char m, n => n == m
  | .ranges rs, n => rs.any fun r => decide (r.1 ≤ n) && decide (n ≤ r.2)

/-- Regular expressions. -/
inductive Rx where
  /-- one character of a class: `x`, `[a-z]` -/
  | cls (p : Cls)
  /-- as many characters of a class as possible: `[a-z]*` -/
  | star (p : Cls)
  /-- one character of a class, preferably: `x?` -/
  | opt (p : Cls)
  /-- `^` with the flag `m` -/
  | bol
  /-- `$` with the flag `m` -/
  | eol
  /-- `ab` -/
  | seq (a b : Rx)
  /-- `(a)` -/
  | cap (a : Rx)

/-! ## Reading -/

/-- The characters that do not stand for themselves. -/
def isMeta (c : UInt8) : Bool := (lit "\\.+*?()|[]{}^$").contains c

/-- The ranges of a class, after the `[`. -/
def readRanges : Nat → Bytes → Option (List (Nat × Nat) × Bytes)
  | 0, _ => none
  | n + 1, s =>
      match s with
      | a :: 45 :: b :: t =>
          if isMeta a || isMeta b || a == 45 || b == 45 || 128 ≤ a || 128 ≤ b then none
          else
            match t with
            | 93 :: t => some ([(a.toNat, b.toNat)], t)
            | t => (readRanges n t).map fun x => ((a.toNat, b.toNat) :: x.1, x.2)
      | _ => none

/-- One character, or a class. -/
def readClass : Bytes → Option (Cls × Bytes)
  | 92 :: 115 :: t => some (.ranges [(9, 10), (12, 13), (32, 32)], t)
  | 92 :: 114 :: t => some (.char 13, t)
  | 92 :: 110 :: t => some (.char 10, t)
  | 46 :: t => some (.any, t)
  | 91 :: t => (readRanges t.length t).map fun x => (.ranges x.1, x.2)
  | a :: t => if isMeta a || 128 ≤ a then none else some (.char a.toNat, t)
  | [] => none

/-- `ab` -/
def cat : List Rx → Option Rx
  | [] => none
  | [a] => some a
  | a :: as => (cat as).map fun b => .seq a b

/-- The expressions that follow each other up to the end of the text or a `)`, which is not read.  `m` is the flag: without it
`^` and `$` are not understood here. -/
def readItems (m : Bool) : Nat → Bytes → Option (List Rx × Bytes)
  | 0, _ => none
  | n + 1, s =>
      match s with
      | [] => some ([], [])
      | 41 :: _ => some ([], s)
      | 40 :: 63 :: _ => none
      | 40 :: t => do
          let (as, t) ← readItems m n t
          let a ← cat as
          match t with
          | 41 :: 42 :: _ => none
          | 41 :: 43 :: _ => none
          | 41 :: 63 :: _ => none
          | 41 :: 123 :: _ => none
          | 41 :: t => do
              let (bs, t) ← readItems m n t
              pure (.cap a :: bs, t)
          | _ => none
      | 94 :: t => if m then (readItems m n t).map fun x => (.bol :: x.1, x.2) else none
      | 36 :: t => if m then (readItems m n t).map fun x => (.eol :: x.1, x.2) else none
      | s => do
          let (p, t) ← readClass s
          match t with
          | 42 :: 63 :: _ => none
          | 43 :: 63 :: _ => none
          | 63 :: 63 :: _ => none
          | 42 :: t => (readItems m n t).map fun x => (.star p :: x.1, x.2)
          | 43 :: t => (readItems m n t).map fun x => (.seq (.cls p) (.star p) :: x.1, x.2)
          | 63 :: t => (readItems m n t).map fun x => (.opt p :: x.1, x.2)
          | t => (readItems m n t).map fun x => (.cls p :: x.1, x.2)

/-- The expression that a text stands for. -/
def readRx (s : Bytes) : Option Rx :=
  let x := match s with
    | 40 :: 63 :: 109 :: 41 :: t => readItems true (t.length + 1) t
    | t => readItems false (t.length + 1) t
  match x with
  | some (as, []) => cat as
  | _ => none

/-! ## Matching -/

/-- A way to match: the runes matched, the runes that follow, and the places (indices of bytes) where the groups begin and
end. -/
structure Way where
  text : List Rune
  rest : List Rune
  groups : List (Nat × Nat)

/-- The ways to match a repeated class, the longest first: runes matched, runes that follow. -/
def Cls.runs (p : Cls) : List Rune → List (List Rune × List Rune)
  | [] => [([], [])]
  | c :: t => if p.has c.code then (p.runs t).map (fun x => (c :: x.1, x.2)) ++ [([], c :: t)] else [([], c :: t)]

/-- The ways to match an expression at the beginning of `s`, in order of preference.  `o` is the place where `s` begins, `prev`
the rune before, if there is one. -/
def Rx.run : Rx → Nat → Option Rune → List Rune → List Way
  | .cls p, _, _, s =>
      match s with
      | c :: t => if p.has c.code then [⟨[c], t, []⟩] else []
      | [] => []
  | .star p, _, _, s => (p.runs s).map fun x => ⟨x.1, x.2, []⟩
  | .opt p, _, _, s =>
      match s with
      | c :: t => if p.has c.code then [⟨[c], t, []⟩, ⟨[], c :: t, []⟩] else [⟨[], c :: t, []⟩]
      | [] => [⟨[], [], []⟩]
  | .bol, _, prev, s => if prev.all (fun c => c.code == 10) then [⟨[], s, []⟩] else []
  | .eol, _, _, s => if s.head?.all (fun c => c.code == 10) then [⟨[], s, []⟩] else []
  | .seq a b, o, prev, s =>
      (a.run o prev s).flatMap fun x =>
        (b.run (o + (flat x.text).length) (x.text.getLast?.or prev) x.rest).map fun y =>
          ⟨x.text ++ y.text, y.rest, x.groups ++ y.groups⟩
  | .cap a, o, prev, s => (a.run o prev s).map fun x => ⟨x.text, x.rest, (o, o + (flat x.text).length) :: x.groups⟩

/-- The leftmost match in `s`: the place where it begins, the rune before it, and the match. -/
def Rx.find (r : Rx) (o : Nat) (prev : Option Rune) : List Rune → Option (Nat × Option Rune × Way)
  | [] =>
      match (r.run o prev []).head? with
      | some x => some (o, prev, x)
      | none => none
  | c :: t =>
      match (r.run o prev (c :: t)).head? with
      | some x => some (o, prev, x)
      | none => r.find (o + c.bytes.length) (some c) t

/-- `Regexp.allMatches`: the places where the successive matches and their groups begin and end.  An empty match directly after
a match (`last` is where it ends) does not count, and after an empty match the search goes on one rune later.  The number is a
bound on the number of rounds. -/
def Rx.all (r : Rx) : Nat → Nat → Option Rune → List Rune → Option Nat → List (List (Nat × Nat))
  | 0, _, _, _, _ => []
  | fuel + 1, o, prev, s, last =>
      match r.find o prev s with
      | none => []
      | some (i, before, x) =>
          let e := i + (flat x.text).length
          if e = o then
            (if last = some i then [] else [(i, e) :: x.groups]) ++
              match s with
              | [] => []
              | c :: t => r.all fuel (o + c.bytes.length) (some c) t (some e)
          else ((i, e) :: x.groups) :: r.all fuel e (x.text.getLast?.or before) x.rest (some e)

/-- `FindAllSubmatchIndex(s, -1)` -/
def Rx.findAll (r : Rx) (s : Bytes) : List (List (Nat × Nat)) := r.all (2 * s.length + 2) 0 none (runes s) none

/-- The text from place `o` on, with the text of each match replaced by `t`. -/
def splice (s t : Bytes) : Nat → List (List (Nat × Nat)) → Bytes
  | o, ((i, e) :: _) :: ms => (s.drop o).take (i - o) ++ t ++ splice s t e ms
  | o, _ => s.drop o

/-- `ReplaceAllLiteral(s, t)` -/
def Rx.replaceAllLiteral (r : Rx) (s t : Bytes) : Bytes := splice s t 0 (r.findAll s)

end Urn.Regex
