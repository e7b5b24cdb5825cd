import Verif.Tools
/-!
# The places of the groups of regular expressions

The matcher of `Regex.lean` with places instead of texts, as `FindAllSubmatchIndex` returns them.  It is between that matcher and
the one in `RegexRune.lean`.
-/
set_option autoImplicit false
namespace Urn.Regex

/-- A way to match: the text matched, the text that follows it, and the places where the groups begin and end. -/
structure Place where
  text : Bytes
  rest : Bytes
  groups : List (Nat × Nat)

/-- `Re.run`, where `s` begins at the place `o`. -/
def Re.runI : Re → Nat → Option UInt8 → Bytes → List Place
  | .cls p, _, _, s =>
      match s with
      | c :: t => if p c then [⟨[c], t, []⟩] else []
      | [] => []
  | .star p, _, _, s => (starRuns p s).map fun x => ⟨x.1, x.2, []⟩
  | .opt p, _, _, s =>
      match s with
      | c :: t => if p c then [⟨[c], t, []⟩, ⟨[], c :: t, []⟩] else [⟨[], c :: t, []⟩]
      | [] => [⟨[], [], []⟩]
  | .bol, _, prev, s => if prev = none ∨ prev = some 10 then [⟨[], s, []⟩] else []
  | .eol, _, _, s => if s = [] ∨ s.head? = some 10 then [⟨[], s, []⟩] else []
  | .seq a b, o, prev, s =>
      (a.runI o prev s).flatMap fun x =>
        (b.runI (o + x.text.length) (x.text.getLast?.or prev) x.rest).map fun y =>
          ⟨x.text ++ y.text, y.rest, x.groups ++ y.groups⟩
  | .cap a, o, prev, s => (a.runI o prev s).map fun x => ⟨x.text, x.rest, (o, o + x.text.length) :: x.groups⟩

/-- `Re.find`: the place of the match, and the match. -/
def Re.findI (r : Re) (o : Nat) (prev : Option UInt8) (s : Bytes) : Option (Nat × Place) :=
  match (r.runI o prev s).head? with
  | some x => some (o, x)
  | none =>
      match s with
      | [] => none
      | c :: t => r.findI (o + 1) (some c) t
  termination_by s.length

/-- `Re.findAll`: for each match, the places where it and its groups begin and end. -/
def Re.findAllI (r : Re) : Nat → Nat → Option UInt8 → Bytes → List (List (Nat × Nat))
  | 0, _, _, _ => []
  | fuel + 1, o, prev, s =>
      match r.findI o prev s with
      | none => []
      | some (i, x) =>
          if x.text = [] then []
          else ((i, i + x.text.length) :: x.groups) :: r.findAllI fuel (i + x.text.length) x.text.getLast? x.rest

end Urn.Regex
