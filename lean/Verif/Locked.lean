import Verif.Shared
/-!
# One machine behind a mutex

Any number of goroutines make calls on one machine, each call between `mu.Lock()` and `mu.Unlock()` of one
`sync.Mutex`.  The package has no such lock; this is how a client can share a machine.  As in `Shared.lean`, goroutines
are interleaved at the labels of the generated code.
-/
set_option autoImplicit false
namespace Urn.Shared

/-- A goroutine: the calls that it has still to make, the one that it is in (then it holds the lock), and what the
earlier ones returned. -/
structure Worker where
  todo : List Op
  now : Option Thread := none
  outs : List Out := []
  deriving DecidableEq, Repr

/-- The goroutine has made all its calls. -/
def Worker.finished (w : Worker) : Prop := w.todo = [] ∧ w.now = none

/-- The machine, the goroutines, and the one that holds the lock. -/
structure Locked where
  m : Machine
  ws : List Worker
  holder : Option Nat := none
  deriving DecidableEq, Repr

/-- At the start: `ps` are the calls that the goroutines make. -/
def Locked.start (m : Machine) (ps : List (List Op)) : Locked := { m := m, ws := ps.map fun p => { todo := p } }

/-- One step of goroutine `i`: takes the lock if it is free (a goroutine that has to wait does nothing), goes on with its
call, or gives the lock back. -/
def Locked.step (s : Locked) (i : Nat) : Locked :=
  match s.ws[i]? with
  | none => s
  | some w =>
      match w.now, w.todo with
      | none, [] => s
      | none, op :: rest =>
          if s.holder = none then
            { s with ws := s.ws.set i { w with todo := rest, now := some (.ready op) }, holder := some i }
          else s
      | some (.done out), _ => { s with ws := s.ws.set i { w with now := none, outs := w.outs ++ [out] }, holder := none }
      | some (.dead _), _ => s
      | some t, _ => let (m, t) := t.step s.m; { s with m := m, ws := s.ws.set i { w with now := some t } }

/-- The goroutines take turns as a schedule says. -/
def Locked.run (s : Locked) (sched : List Nat) : Locked := sched.foldl Locked.step s

end Urn.Shared
