import Verif.Machine
/-!
# Calls on one machine from several goroutines

`Conc.lean` is about calls of `Parse` on different machines.  Here two goroutines call methods of the same machine.
All fields of `machine` (machine.go:99-107) are shared; `output` (machine.go:146) and the place in the code are not.
A goroutine runs from one label of the generated code to the next without interruption (a simplification: Go can switch
anywhere, so there are more interleavings than these).
-/
set_option autoImplicit false
namespace Urn.Shared

/-- A goroutine that makes one call on the machine. -/
inductive Thread where
  /-- the call has not started -/
  | ready (op : Op)
  /-- inside of `Parse`, at a label of the code, with its `output` -/
  | at (ctl : Ctl) (o : URN)
  /-- the call has returned -/
  | done (out : Out)
  /-- the call panicked -/
  | dead (p : Panic)
  deriving DecidableEq, Repr

/-- One step of a goroutine: machine.go:138-5034 `Parse` from one label to the next; `WithParsingMode`
(machine.go:5036-5047) and `Error` (machine.go:129-131) in one step. -/
def Thread.step (m : Machine) : Thread → Machine × Thread
  | .ready (.parse s) => let st := entry (m.init s); (st.m, .at st.ctl st.o)
  | .ready (.withParsingMode x) => (m.withParsingMode x, .done .unit)
  | .ready .error => (m, .done (.err m.error))
  | .at .out o => let (u, e) := result m o; (m, .done (.parsed u e))
  | .at ctl o =>
      match _root_.Urn.step ⟨ctl, m, o⟩ with
      | .ok st => (st.m, .at st.ctl st.o)
      | .error p => (m, .dead p)
  | t => (m, t)

/-- The machine and the two goroutines. -/
structure System where
  m : Machine
  a : Thread
  b : Thread
  deriving DecidableEq, Repr

/-- One step of one of the goroutines: the first one if `x`. -/
def System.step (s : System) (x : Bool) : System :=
  if x then let (m, a) := s.a.step s.m; { s with m := m, a := a }
  else let (m, b) := s.b.step s.m; { s with m := m, b := b }

/-- The goroutines take turns as a schedule says. -/
def System.run (s : System) (sched : List Bool) : System := sched.foldl System.step s

end Urn.Shared
