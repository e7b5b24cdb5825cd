import Verif.Machine
/-!
# Parse as a sequence of atomic memory accesses

`Machine.lean` treats the buffer as part of the state of the machine.  Here every read and every
write of a byte of the buffer is a separate atomic action, so that several calls of `Parse` can be
interleaved.  The buffer is a window (offset and length) of a common memory: the memory a Go
slice points to.  `Verif/ConcSeq.lean` proves that a call that runs alone does what
`Machine.parse` says.
-/
set_option autoImplicit false
namespace Urn
open Tables

/-- A program of one goroutine: a tree of atomic accesses to the buffer.  Everything else
(`pb`, `p`, the output) is local to the goroutine. -/
inductive Prog (α : Type) where
  | done (r : Run α)
  | read (i : Nat) (k : UInt8 → Prog α)
  | write (i : Nat) (c : UInt8) (k : Prog α)

namespace Prog
variable {α β : Type}

/-- Sequencing. -/
def bind : Prog α → (α → Prog β) → Prog β
  | done (.ok a), f => f a
  | done (.panic p), _ => done (.panic p)
  | done .diverge, _ => done .diverge
  | read i k, f => read i (fun c => (k c).bind f)
  | write i c k, f => write i c (k.bind f)

instance : Monad Prog where
  pure a := done (.ok a)
  bind := bind

end Prog

/-- `data[i]` for a buffer of length `n`. -/
def getP (n : Nat) (i : Int) : Prog UInt8 :=
  if 0 ≤ i ∧ i < n then .read i.toNat (fun c => pure c) else .done (.panic .index)

/-- `data[i] = c` for a buffer of length `n`. -/
def putP (n : Nat) (i : Int) (c : UInt8) : Prog Unit :=
  if 0 ≤ i ∧ i < n then .write i.toNat c (pure ()) else .done (.panic .index)

/-- Copy `k` bytes from position `b`, one at a time. -/
def copyP (b : Nat) : Nat → Prog Bytes
  | 0 => pure []
  | k + 1 => .read b (fun c => do let l ← copyP (b + 1) k; pure (c :: l))

/-- `string(data[i:j])` for a buffer of length `n`. -/
def sliceP (n : Nat) (i j : Int) : Prog Bytes :=
  if 0 ≤ i ∧ i ≤ j ∧ j ≤ n then copyP i.toNat (j.toNat - i.toNat) else .done (.panic .slice)

/-- `string(m.text())`, machine.go:133-135. -/
def textP (n : Nat) (m : Machine) : Prog Bytes := sliceP n m.pb m.p

/-- The loops of `set_nss`, machine.go:4174-4176 and 4179-4181: each round reads a byte and writes it
back. -/
def shiftP (n : Nat) (pb : Int) (delta : UInt8) : List Int → Prog Unit
  | [] => pure ()
  | i :: is => do
      let c ← getP n (pb + i)
      putP n (pb + i) (c + delta)
      shiftP n pb delta is

/-- A local computation that may panic. -/
def liftP {α : Type} : Except Panic α → Prog α
  | .ok a => pure a
  | .error p => .done (.panic p)

/-- The actions, machine.go:4149-4619 (see `execAct`); those that do not access the buffer are taken
from `execAct`. -/
def actP (n : Nat) (a : Act) (m : Machine) (o : URN) : Prog (Flow × Machine × URN) :=
  match a with
  | .setPre => do let t ← textP n m; pure (.next, m, { o with «prefix» := t })
  | .throwPreUrnErr =>
      if m.parsingMode ≠ RFC8141Only then
        let pos := m.p + 3
        if pos < m.pe then do
          let c ← getP n pos
          if c == 58 && o.prefix ≠ [] then
            pure (raise .noUrnWithinID pos m o)
          else pure (.next, m, o)
        else pure (.next, m, o)
      else pure (.next, m, o)
  | .setNid => do let t ← textP n m; pure (.next, m, { o with ID := t })
  | .setNss => do
      let ss ← textP n m
      shiftP n m.pb 32 o.tolower
      let norm ← textP n m
      shiftP n m.pb (-32) o.tolower
      pure (.next, m, { o with SS := ss, norm := norm })
  | .setScimType => do
      let t ← textP n m
      match o.scim with
      | none => .done (.panic .nilDeref)
      | some s => pure (.next, m, { o with scim := some { s with Typ := SchemaType.fromString t } })
  | .setScimName =>
      match o.scim with
      | none => .done (.panic .nilDeref)
      | some s => do
          let t ← sliceP n s.pos m.p
          pure (.next, m, { o with scim := some { s with Name := t } })
  | .setScimOther =>
      match o.scim with
      | none => .done (.panic .nilDeref)
      | some s => do
          let t ← sliceP n s.pos m.p
          pure (.next, m, { o with scim := some { s with Other := t } })
  | .setRComponent => do let t ← textP n m; pure (.next, m, { o with rComponent := t })
  | .setQComponent => do let t ← textP n m; pure (.next, m, { o with qComponent := t })
  | .setFComponent => do let t ← textP n m; pure (.next, m, { o with fComponent := t })
  | a => liftP (execAct a m o)

/-- A block of actions (see `execActs`). -/
def actsP (n : Nat) : List Act → Machine → URN → Prog (Flow × Machine × URN)
  | [], m, o => pure (.next, m, o)
  | a :: as, m, o => do
      let (fl, m', o') ← actP n a m o
      match fl with
      | .again => pure (.again, m', o')
      | .next => actsP n as m' o'

/-- The code from one program label to the next (see `step`). -/
def stepP (n : Nat) (s : St) : Prog St :=
  match s.ctl with
  -- machine.go:156-4619
  | .resume => do
      let c ← getP n s.m.p
      match dispatch s.m.cs c with
      | .out => pure { s with ctl := .out }
      | .tr t =>
          let (target, f) := trRow t
          let m := { s.m with cs := target }
          match f with
          | none => pure ⟨.again, m, s.o⟩
          | some f => do
              let (_, m', o') ← actsP n (fActs f) m s.o
              pure ⟨.again, m', o'⟩
  -- machine.go:4621-4636: no access to the buffer
  | .again => liftP (step s)
  -- machine.go:4637-5021
  | .testEof =>
      if s.m.p = s.m.eof then
        match eofActions[s.m.cs]? with
        | none => .done (.panic .index)
        | some t => do
            let (fl, m', o') ← actsP n (eofActs t) s.m s.o
            match fl with
            | .again => pure ⟨.again, m', o'⟩
            | .next => pure ⟨.out, m', o'⟩
      else pure { s with ctl := .out }
  | .out => pure s

/-- The loop (see `run`). -/
def runP (n : Nat) : Nat → St → Prog (Machine × URN)
  | _, ⟨.out, m, o⟩ => pure (m, o)
  | 0, _ => .done .diverge
  | k + 1, s => do let s' ← stepP n s; runP n k s'

/-- machine.go:138-5034 `Parse`, called with a buffer of length `n`, as a sequence of memory accesses.
The machine only knows the length of the buffer. -/
def Machine.parseP (m : Machine) (n : Nat) : Prog (Option URN × Option Err) := do
  let (m', o) ← runP n (fuelFor n) (entry { m with data := [], p := 0, pb := 0, pe := n, eof := n, err := none, cs := m.startParsingAt })
  pure (result m' o)

/-! ## One goroutine alone -/

/-- Run a program on a buffer of its own: its result, the final buffer, and all writes in order. -/
def Prog.alone {α : Type} : Prog α → Bytes → Run α × Bytes × List (Nat × UInt8)
  | .done r, d => (r, d, [])
  | .read i k, d => (k (d.getD i 0)).alone d
  | .write i c k, d => let x := k.alone (d.set i c); (x.1, x.2.1, (i, c) :: x.2.2)

/-- The number of memory accesses. -/
def Prog.accesses {α : Type} : Prog α → Bytes → Nat
  | .done _, _ => 0
  | .read i k, d => (k (d.getD i 0)).accesses d + 1
  | .write i c k, d => k.accesses (d.set i c) + 1

/-! ## Several goroutines -/

/-- Where the buffer of a call is in memory. -/
structure Window where
  off : Nat
  len : Nat
  deriving DecidableEq, Repr

/-- The contents of a window. -/
def Window.of (w : Window) (h : Bytes) : Bytes := (h.drop w.off).take w.len

/-- Memory and programs of all goroutines, named by `ι`. -/
structure Sys (ι α : Type) where
  mem : Bytes
  prog : ι → Prog α

/-- Goroutine `i` performs its next memory access, if it is not finished. -/
def Sys.step {ι α : Type} [DecidableEq ι] (win : ι → Window) (c : Sys ι α) (i : ι) : Sys ι α :=
  match c.prog i with
  | .done _ => c
  | .read j k => { c with prog := fun t => if t = i then k (c.mem.getD ((win i).off + j) 0) else c.prog t }
  | .write j b k => ⟨c.mem.set ((win i).off + j) b, fun t => if t = i then k else c.prog t⟩

/-- A schedule says which goroutine makes the next access. -/
def Sys.exec {ι α : Type} [DecidableEq ι] (win : ι → Window) (c : Sys ι α) (sched : List ι) : Sys ι α :=
  sched.foldl (Sys.step win) c

end Urn
