import Verif.GoShareSpec
import Verif.GoRace
import Verif.GoClient
/-!
# Goroutines behind a lock

Any number of goroutines run functions of the package, each time between `mu.Lock()` and `mu.Unlock()` of one `sync.Mutex`.  The package has no
such lock; this is how clients can share what they must not use at the same time.  All memory is shared: a goroutine makes one access to memory at
a time (`Io` of `GoTree.lean`), and others have turns in between, but they wait for the lock.  What is done with the lock held happens, for Go, before what is
done when it is taken again, so there is no race.

A goroutine has a state `σ` and tasks `τ`; with the lock held it does `sec t s` for a task `t` in the state `s`.
-/
set_option autoImplicit false
namespace Urn.GoLang.Lock

/-- A goroutine: its state and what it has still to do. -/
structure Worker (σ τ : Type) where
  state : σ
  todo : List τ

/-- The memory, the goroutines, and which of them holds the lock, with what it will do next. -/
structure World (σ τ : Type) where
  mem : Heap
  ws : List (Worker σ τ)
  lock : Option (Nat × Io σ) := none

section
variable {σ τ : Type} (sec : τ → σ → Io σ)

/-- One step of goroutine `i`: it takes the lock if that is free, goes on with what it does, or gives the lock back.  After a panic the lock is never given back (in
Go, the program ends). -/
def World.step (w : World σ τ) (i : Nat) : World σ τ :=
  match w.lock with
  | none =>
      match w.ws[i]? with
      | some ⟨s, t :: ts⟩ => { w with ws := w.ws.set i ⟨s, ts⟩, lock := some (i, sec t s) }
      | _ => w
  | some (j, io) =>
      if i = j then
        match io with
        | .done (.ok s) => { w with ws := w.ws.modify j fun x => { x with state := s }, lock := none }
        | .done _ => w
        | .read a p k =>
            match w.mem.at a p with
            | some c => { w with lock := some (j, k c) }
            | none => { w with lock := some (j, .done .stuck) }
        | .write a u k =>
            match w.mem.own a u with
            | some c => { w with mem := w.mem.set a c, lock := some (j, k) }
            | none => { w with lock := some (j, .done .stuck) }
        | .alloc c k => { w with mem := w.mem ++ [c], lock := some (j, k w.mem.length) }
      else w

/-- The goroutines take turns as a schedule says. -/
def World.run (w : World σ τ) (sched : List Nat) : World σ τ := sched.foldl (World.step sec) w

/-- All goroutines have done everything. -/
def World.Finished (w : World σ τ) : Prop := w.lock = none ∧ ∀ x ∈ w.ws, x.todo = []

/-- Nothing is done at the same time: the goroutines in `order` do, one after the other, what they have to do next. -/
def serial : List Nat → Heap → List (Worker σ τ) → Res (Heap × List (Worker σ τ))
  | [], h, ws => .ok (h, ws)
  | i :: is, h, ws =>
      match ws[i]? with
      | some ⟨s, t :: ts⟩ => (sec t s).run h >>= fun r => serial is r.2 (ws.set i ⟨r.1, ts⟩)
      | _ => .stuck

/-- When the lock is free, the memory and the goroutines are as given.  When it is held, they were so when it was taken, and what its holder has still to do ends
as it would have ended alone. -/
def World.Is (w : World σ τ) (h : Heap) (ws : List (Worker σ τ)) : Prop :=
  match w.lock with
  | none => w.mem = h ∧ w.ws = ws
  | some (i, io) => ∃ s t ts, ws[i]? = some ⟨s, t :: ts⟩ ∧ w.ws = ws.set i ⟨s, ts⟩ ∧ io.run w.mem = (sec t s).run h

/-- `order` explains how things are: as if nothing had been done at the same time. -/
def Explains (h : Heap) (ws : List (Worker σ τ)) (w : World σ τ) (order : List Nat) : Prop :=
  ∃ h' ws', serial sec order h ws = .ok (h', ws') ∧ w.Is sec h' ws'

/-- There are at least `K` rounds in the schedule in which each of the goroutines below `n` has a turn. -/
def Rounds (n : Nat) : Nat → List Nat → Prop
  | 0, _ => True
  | K + 1, sched => ∃ r rest, sched = r ++ rest ∧ (∀ i, i < n → i ∈ r) ∧ Rounds n K rest

end

/-! ## A machine behind a lock -/

/-- A task of a goroutine is a call of a method of the machine at the address `a`.  Its state is what its calls returned. -/
def callSec (P : Prog) (X : Ext) (n a : Nat) (c : MCall) (vss : List (List Val)) : Io (List (List Val)) := do
  let vs ← c.run P X n a
  pure (vss ++ [vs])

/-- A call that has returned: who made it, and what it returned in the model. -/
structure Call where
  who : Nat
  call : MCall
  out : Out

/-- The calls of one goroutine. -/
def mine (i : Nat) (log : List Call) : List Call := log.filter fun c => c.who == i

/-- The goroutines make the calls `css`, on the machine at `a`, which is `m` at the start.  `log` explains how things are: made one after the other, the calls in it return what they have returned; the
calls of each goroutine are in it in order; and when the lock is free, the machine is as after these calls, and the URNs that were returned are still there. -/
structure Linear (a : Nat) (m : Machine) (css : List (List MCall)) (w : World (List (List Val)) MCall) (log : List Call) : Prop where
  calls : ∃ m', m.execAll (log.map fun c => c.call.op) = .ok (m', log.map Call.out) ∧ (w.lock = none → MachineAt w.mem a m')
  each : ∀ i, i < css.length → ∃ vss rest now, w.ws[i]? = some ⟨vss, rest⟩ ∧ css[i]? = some ((mine i log).map Call.call ++ now ++ rest) ∧
    vss.length = (mine i log).length ∧ (w.lock = none → OutsAre w.mem ((mine i log).map Call.out) vss) ∧
    (now = [] ∨ ∃ c io, now = [c] ∧ w.lock = some (i, io))
  who : ∀ c ∈ log, c.who < css.length

/-! ## URNs and SCIM structs behind a lock -/

/-- A task of a goroutine is to run some calls of a client (`GoClient.lean`).  Its state is what its calls returned and its variables. -/
def runSec (P C : Prog) (X : Ext) (n : Nat) (ss : List Step) (x : List (List Val) × Regs) : Io (List (List Val) × Regs) := do
  let (vss, R) ← runTextT P C X n ss x.2
  pure (x.1 ++ vss, R)

/-- A goroutine in the model: the calls that it has made, what they returned, its variables, and what it has still to do. -/
structure MWorker where
  steps : List Step := []
  gots : List Heap.Got := []
  regs : Regs
  todo : List (List Step)

/-- In the model, goroutine `i` does what it has to do next. -/
def modelStep (X : Ext) (i : Nat) (x : Heap.Mem × List MWorker) : Run (Heap.Mem × List MWorker) :=
  match x.2[i]? with
  | some ⟨ss, gs, R, t :: ts⟩ => runModel X t R x.1 >>= fun r => .ok (r.2.2, x.2.set i ⟨ss ++ t, gs ++ r.1, r.2.1, ts⟩)
  | _ => .diverge

/-- In the model, the goroutines in `order` do, one after the other, what they have to do next. -/
def modelSerial (X : Ext) : List Nat → Heap.Mem × List MWorker → Run (Heap.Mem × List MWorker)
  | [], x => .ok x
  | i :: is, x => modelStep X i x >>= modelSerial X is

/-- `order` explains how things are, in the model: there nothing panics in this order, and when the lock is free, all goroutines have got what they get in the model in this order, and
all URNs and SCIM structs are as in the model.  `f` and `g` say at which addresses those of the model are.  When a goroutine holds the lock, what it does will end if
it ends in the model, and panic if it panics there. -/
def ClientLinear (X : Ext) (f g : Option Nat → Option Nat) (M : Heap.Mem) (ms : List MWorker) (w : World (List (List Val) × Regs) (List Step)) (order : List Nat) : Prop :=
  ∃ M' ms', modelSerial X order (M, ms) = .ok (M', ms') ∧
    match w.lock with
    | none => ∃ f' g', (∀ k, k < M.urns.length → f' (some k) = f (some k)) ∧ (∀ k, k < M.scims.length → g' (some k) = g (some k)) ∧
        ms'.length = w.ws.length ∧
        ∀ (i : Nat) (m : MWorker), ms'[i]? = some m → ∃ R', w.ws[i]? = some ⟨(valsAll X f' g' m.steps m.gots, R'), m.todo⟩ ∧ SameEnd f' g' M' m.regs w.mem R'
    | some (i, io) =>
        match modelStep X i (M', ms') with
        | .ok _ => ∃ r, io.run w.mem = .ok r
        | .panic p => io.run w.mem = .panic p
        | .diverge => False

end Urn.GoLang.Lock
