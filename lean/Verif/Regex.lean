import Verif.Go
/-!
# Regular expressions, as Go's package `regexp` matches them

Only the constructions used by the two expressions in `/repo/tools`.  The documentation of `regexp` defines
the match: of the matches that begin leftmost, the one that a backtracking search would have found first.
`Re.run` lists the ways to match at a given place in the order of that search.

Go matches runes, as in `RegexRune.lean`; here they are bytes.  For these two expressions there is no difference, which is
proved in `RegexRuneAux.lean`: apart from `.`, they only mention ASCII characters; `.` is only used repeated, for all of a
text up to a newline or up to an ASCII character; and an ASCII byte is a rune by itself wherever it stands, valid UTF-8 or not.

Places in the text are represented by the byte before (if any) and the text that follows.
-/
set_option autoImplicit false
namespace Urn.Regex

/-- Regular expressions. -/
inductive Re where
  /-- one character of a class: `x`, `[a-z]` -/
  | cls (p : UInt8 → Bool)
  /-- as many characters of a class as possible: `[a-z]*` -/
  | star (p : UInt8 → Bool)
  /-- one character of a class, preferably: `x?` -/
  | opt (p : UInt8 → Bool)
  /-- `^` with the flag `m` -/
  | bol
  /-- `$` with the flag `m` -/
  | eol
  /-- `ab` -/
  | seq (a b : Re)
  /-- `(a)` -/
  | cap (a : Re)

/-- `a+` for a class -/
def Re.plus (p : UInt8 → Bool) : Re := .seq (.cls p) (.star p)

/-- A literal text. -/
def Re.text : Bytes → Re
  | [] => .star fun _ => false
  | [c] => .cls fun d => d == c
  | c :: w => .seq (.cls fun d => d == c) (Re.text w)

/-- A way to match: the text matched, the text that follows it, and the texts of the groups. -/
structure Found where
  text : Bytes
  rest : Bytes
  groups : List Bytes
  deriving DecidableEq, Repr

/-- The ways to match a repeated class, the longest first: text matched, text that follows. -/
def starRuns (p : UInt8 → Bool) : Bytes → List (Bytes × Bytes)
  | [] => [([], [])]
  | c :: t => if p c then (starRuns p t).map (fun x => (c :: x.1, x.2)) ++ [([], c :: t)] else [([], c :: t)]

/-- The ways to match an expression at the beginning of `s`, in order of preference.  `prev` is the byte
before, if there is one. -/
def Re.run : Re → Option UInt8 → Bytes → List Found
  | .cls p, _, s =>
      match s with
      | c :: t => if p c then [⟨[c], t, []⟩] else []
      | [] => []
  | .star p, _, s => (starRuns p s).map fun x => ⟨x.1, x.2, []⟩
  | .opt p, _, s =>
      match s with
      | c :: t => if p c then [⟨[c], t, []⟩, ⟨[], c :: t, []⟩] else [⟨[], c :: t, []⟩]
      | [] => [⟨[], [], []⟩]
  | .bol, prev, s => if prev = none ∨ prev = some 10 then [⟨[], s, []⟩] else []
  | .eol, _, s => if s = [] ∨ s.head? = some 10 then [⟨[], s, []⟩] else []
  | .seq a b, prev, s =>
      (a.run prev s).flatMap fun x =>
        (b.run (x.text.getLast?.or prev) x.rest).map fun y => ⟨x.text ++ y.text, y.rest, x.groups ++ y.groups⟩
  | .cap a, prev, s => (a.run prev s).map fun x => ⟨x.text, x.rest, x.text :: x.groups⟩

/-- The leftmost match in `s`: the text skipped, and the match. -/
def Re.find (r : Re) (prev : Option UInt8) (s : Bytes) : Option (Bytes × Found) :=
  match (r.run prev s).head? with
  | some x => some ([], x)
  | none =>
      match s with
      | [] => none
      | c :: t => (r.find (some c) t).map fun y => (c :: y.1, y.2)
  termination_by s.length

/-- The successive matches that do not overlap, each with the text skipped before it; and the text that follows
the last one.  (The two expressions never match the empty text; here an empty match would end the search,
while Go goes on one rune later.)  `fuel` is more than the length of `s`. -/
def Re.findAll (r : Re) : Nat → Option UInt8 → Bytes → List (Bytes × Found) × Bytes
  | 0, _, s => ([], s)
  | fuel + 1, prev, s =>
      match r.find prev s with
      | none => ([], s)
      | some (skip, x) =>
          if x.text = [] then ([], s)
          else
            let y := r.findAll fuel x.text.getLast? x.rest
            ((skip, x) :: y.1, y.2)

end Urn.Regex
