import Verif.Machine
/-!
# The work done by `Parse`

The generated code copies pieces of its input into strings: every `string(m.text())` allocates and
copies.  The work of a run counts the rounds of the loop, the bytes that are copied, the bytes that
are rewritten in place and the entries added to the list of letters.
-/
set_option autoImplicit false
namespace Urn
open Tables

/-- Length of `m.text()` (machine.go:133-135): the bytes that `string(m.text())` copies. -/
def Machine.textLen (m : Machine) : Nat := (m.p - m.pb).toNat

/-- Length of `m.data[output.scim.pos:m.p]` (machine.go.rl:175, 183). -/
def scimLen (m : Machine) (o : URN) : Nat :=
  match o.scim with
  | none => 0
  | some s => (m.p - s.pos).toNat

/-- The bytes that an action copies or rewrites, and the entries it appends; all other statements
are not counted (each action has a fixed number of them).  `append` counts for one entry, which is
its amortised cost. -/
def actWork : Act → Machine → URN → Nat
  -- machine.go.rl:39-42: `output.tolower = append(output.tolower, m.p-m.pb)`
  | .tolower, _, _ => 1
  -- machine.go.rl:45, 62, 167, 217, 221, 225: `string(m.text())`
  | .setPre, m, _ | .setNid, m, _ | .setScimType, m, _
  | .setRComponent, m, _ | .setQComponent, m, _ | .setFComponent, m, _ => m.textLen
  -- machine.go.rl:65-76: two copies, two loops over the list of letters
  | .setNss, m, o => 2 * m.textLen + 2 * o.tolower.length
  -- machine.go.rl:174-176, 182-184
  | .setScimName, m, o | .setScimOther, m, o => scimLen m o
  | _, _, _ => 0

/-- The work of a block of actions: of those that are executed. -/
def actsWork : List Act → Machine → URN → Nat
  | [], _, _ => 0
  | a :: as, m, o =>
      actWork a m o + match execAct a m o with
        | .ok (.next, m', o') => actsWork as m' o'
        | _ => 0

/-- The work between two program labels (see `step`): one, and that of the actions executed. -/
def stepWork (s : St) : Nat :=
  1 + match s.ctl with
  | .resume =>
      match index s.m.data s.m.p with
      | .error _ => 0
      | .ok c =>
          match dispatch s.m.cs c with
          | .out => 0
          | .tr n =>
              let (target, f) := trRow n
              match f with
              | none => 0
              | some f => actsWork (fActs f) { s.m with cs := target } s.o
  | .again | .out => 0
  | .testEof =>
      if s.m.p = s.m.eof then
        match eofActions[s.m.cs]? with
        | none => 0
        | some n => actsWork (eofActs n) s.m s.o
      else 0

/-- The work of the loop (see `run`). -/
def runWork : Nat → St → Nat
  | _, ⟨.out, _, _⟩ => 0
  | 0, _ => 0
  | n + 1, s => stepWork s + match step s with
      | .ok s' => runWork n s'
      | .error _ => 0

/-- The work of one call of `(*machine).Parse` (see `Machine.parse`). -/
def Machine.parseWork (m : Machine) (input : Bytes) : Nat := runWork (fuelFor input.length) (entry (m.init input))

end Urn
