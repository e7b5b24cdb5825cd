import Verif.GoTreeRun
import Verif.GoClient
import Verif.GoCheck
/-!
# Goroutines

Several goroutines run the text of the package at once.  All of them see the memory `mem` that was there when they were started; what
a goroutine makes is in `new`.  A schedule says who makes the next access to memory.

The goroutines do not synchronise (the package takes no lock and has no channels), so two accesses of different goroutines to the
same field of a struct, or to the same byte of an array, are a data race in the sense of the Go memory model if one of them is a write, whatever else
happens between them.
After a race a Go program may do anything; here it just goes on, but `raced` stays true.

Addresses: below `mem.length` for the memory that was there; `mem.length + j` for the `j`-th cell that the goroutine itself made.
Without a race a goroutine cannot get an address that another one made: it would have to read it where the other one wrote it.  So
it does not matter that two goroutines use the same numbers for the memory that each of them made.
-/
set_option autoImplicit false
namespace Urn.GoLang

/-! ## Accesses -/

/-- An access: whether it is a write, the address, and what is accessed there. -/
structure Access where
  write : Bool
  cell : Nat
  part : Part
deriving DecidableEq, Repr

/-- The two have something in common. -/
def Part.Meets : Part → Part → Prop
  | .field f, .field g => f = g
  | .bytes i n, .bytes j m => 0 < n ∧ 0 < m ∧ i < j + m ∧ j < i + n
  | .field _, .bytes _ _ | .bytes _ _, .field _ => False
  | .all, _ | _, .all => True

instance : (p q : Part) → Decidable (p.Meets q)
  | .bytes i n, .bytes j m => inferInstanceAs (Decidable (0 < n ∧ 0 < m ∧ i < j + m ∧ j < i + n))
  | .field f, .field g => inferInstanceAs (Decidable (f = g))
  | .field _, .bytes _ _ | .bytes _ _, .field _ => .isFalse id
  | .all, .all | .all, .bytes _ _ | .bytes _ _, .all | .all, .field _ | .field _, .all => .isTrue trivial

/-- Two accesses are in conflict if they are to the same memory and one of them is a write. -/
def Access.Conflict (x y : Access) : Prop := x.cell = y.cell ∧ x.part.Meets y.part ∧ (x.write = true ∨ y.write = true)

instance (x y : Access) : Decidable (x.Conflict y) := inferInstanceAs (Decidable (_ ∧ _))

/-- The accesses that a computation makes when nobody else accesses memory. -/
def Io.log {α : Type} : Io α → Heap → List Access
  | done _, _ => []
  | read a p k, h => ⟨false, a, p⟩ :: match h.at a p with | some c => log (k c) h | none => []
  | write a u k, h => ⟨true, a, u.part⟩ :: match h.own a u with | some c => log k (h.set a c) | none => []
  | alloc c k, h => log (k h.length) (h ++ [c])

/-- The number of steps that it makes. -/
def Io.steps {α : Type} : Io α → Heap → Nat
  | done _, _ => 0
  | read a p k, h => 1 + match h.at a p with | some c => steps (k c) h | none => 0
  | write a u k, h => 1 + match h.own a u with | some c => steps k (h.set a c) | none => 0
  | alloc c k, h => 1 + steps (k h.length) (h ++ [c])

/-! ## The world -/

/-- A goroutine: what it still has to do and the memory that it made. -/
structure Goroutine (α : Type) where
  todo : Io α
  new : Heap

/-- The memory that was there, the goroutines, the accesses to that memory (who made which), and whether there was a race. -/
structure World (α : Type) where
  mem : Heap
  gos : List (Goroutine α)
  accesses : List (Nat × Access)
  raced : Bool

/-- The start. -/
def World.start {α : Type} (h : Heap) (ts : List (Io α)) : World α := ⟨h, ts.map fun t => ⟨t, []⟩, [], false⟩

namespace World
variable {α : Type}

/-- Goroutine `i` goes on with this. -/
def go (w : World α) (i : Nat) (g : Goroutine α) : World α := { w with gos := w.gos.set i g }

/-- It accesses memory that was there at the start. -/
def access (w : World α) (i : Nat) (x : Access) : World α :=
  { w with
    accesses := (i, x) :: w.accesses
    raced := w.raced || w.accesses.any fun y => y.1 != i && decide (x.Conflict y.2) }

/-- Goroutine `i` makes one step. -/
def step (w : World α) (i : Nat) : World α :=
  match w.gos[i]? with
  | none => w
  | some g =>
    let see : Heap := w.mem ++ g.new
    match g.todo with
    | .done _ => w
    | .alloc c k => w.go i ⟨k see.length, g.new ++ [c]⟩
    | .read a p k =>
        let w := if a < w.mem.length then w.access i ⟨false, a, p⟩ else w
        match see.at a p with
        | some c => w.go i { g with todo := k c }
        | none => w.go i { g with todo := .done .stuck }
    | .write a u k =>
        let w := if a < w.mem.length then w.access i ⟨true, a, u.part⟩ else w
        match see.own a u with
        | some c =>
            if a < w.mem.length then { w with mem := w.mem.set a c }.go i { g with todo := k }
            else w.go i ⟨k, g.new.set (a - w.mem.length) c⟩
        | none => w.go i { g with todo := .done .stuck }

/-- A schedule: who makes the next step. -/
def run (w : World α) (sched : List Nat) : World α := sched.foldl step w

/-- What goroutine `i` returned and the memory that it sees, if it is done. -/
def result (w : World α) (i : Nat) : Option (Res (α × Heap)) :=
  match w.gos[i]? with
  | some ⟨.done (.ok a), new⟩ => some (.ok (a, w.mem ++ new))
  | some ⟨.done (.panic p), _⟩ => some (.panic p)
  | some ⟨.done .stuck, _⟩ => some .stuck
  | some ⟨.done .more, _⟩ => some .more
  | _ => none

end World

/-! ## What it means that goroutines do not disturb each other -/

/-- Goroutine `i` does what it does alone: it is done after a number of steps, and whenever it is done, it has returned what it returns
alone, and the memory that it made, and the memory that no other goroutine writes to, are as when it is alone. -/
structure Alone {α : Type} (h : Heap) (ts : List (Io α)) (i : Nat) (t : Io α) : Prop where
  done : ∀ sched : List Nat, t.steps h ≤ sched.count i → (((World.start h ts).run sched).result i).isSome
  same : ∀ (sched : List Nat) (r : Res (α × Heap)), ((World.start h ts).run sched).result i = some r →
    match t.run h, r with
    | .ok (a, k), .ok (b, l) => a = b ∧ k.length = l.length ∧
        (∀ c, (∀ j u x, j ≠ i → ts[j]? = some u → x ∈ u.log h → x.write = true → x.cell = c → h.length ≤ c) → l[c]? = k[c]?) ∧
        ∀ c p, (∀ j u x, j ≠ i → ts[j]? = some u → x ∈ u.log h → x.write = true → x.cell = c → x.part.Meets p → h.length ≤ c) → l.at c p = k.at c p
    | .panic p, .panic q => p = q
    | .stuck, .stuck | .more, .more => True
    | _, _ => False

/-- Under every schedule there is no race and every goroutine does what it does alone. -/
structure Undisturbed {α : Type} (h : Heap) (ts : List (Io α)) : Prop where
  noRace : ∀ sched : List Nat, ((World.start h ts).run sched).raced = false
  alone : ∀ i t, ts[i]? = some t → Alone h ts i t

/-- No two goroutines have, alone, accesses to the memory that is there that are in conflict. -/
def NoConflict {α : Type} (h : Heap) (ts : List (Io α)) : Prop :=
  ∀ (i j : Nat) (t u : Io α) (x y : Access), i ≠ j → ts[i]? = some t → ts[j]? = some u → x ∈ t.log h → y ∈ u.log h → x.cell < h.length → ¬ x.Conflict y

/-! ## The programs -/

/-- as `callClient` -/
def callClientT (P C : Prog) (X : Ext) (n : Nat) (f : String) (vs : List Val) : Io (List Val) := do
  let g ← .done (.some! (findFn C none f))
  callFnT P (callT P X n) g none vs false

/-- as `runText` -/
def runTextT (P C : Prog) (X : Ext) (n : Nat) : List Step → Regs → Io (List (List Val) × Regs)
  | [], R => pure ([], R)
  | s :: ss, R => do
      let vs ← callClientT P C X n (s.text R).1 (s.text R).2
      let (vss, R) ← runTextT P C X n ss (R.addVals vs)
      pure (vs :: vss, R)

/-- as `makeOptions` -/
def makeOptionsT (P : Prog) (X : Ext) (n : Nat) : List ParsingMode → Io (List Val)
  | [] => pure []
  | x :: xs => do
      let v ← runFnT P X n "WithParsingMode" [.int "ParsingMode" x] false
      let v ← .done (one v)
      let vs ← makeOptionsT P X n xs
      pure (v :: vs)

/-- as `callParse` -/
def callParseT (P : Prog) (X : Ext) (n : Nat) (s : Val) (xs : List ParsingMode) : Io (List Val) := do
  let os ← makeOptionsT P X n xs
  runFnT P X n "Parse" (s :: os) false

/-! ## Objects that goroutines share -/

/-- A URN or a SCIM struct of the model. -/
inductive Place where
  | urn (k : Nat)
  | scim (k : Nat)
deriving DecidableEq

def Place.urns (p : Option Nat) : List Place := p.toList.map .urn
def Place.scims (p : Option Nat) : List Place := p.toList.map .scim

/-- What can be reached from pointers: the URNs and SCIM structs that they point to, and the SCIM structs of these URNs. -/
def Regs.Reach (R : Regs) (M : Urn.Heap.Mem) : Place → Prop
  | .urn k => some k ∈ R.urns
  | .scim k => some k ∈ R.scims ∨ ∃ i x, some i ∈ R.urns ∧ M.urns[i]? = some x ∧ x.scim = some k

/-- What a call may change: the receiver of `UnmarshalJSON`, and what the client assigns to. -/
def Step.target (R : Regs) : Step → List Place
  | .unmarshalJSON p _ | .setID p _ | .setSS p _ | .copyURN p _ => Place.urns (R.urn p)
  | .scimUnmarshalJSON p _ | .setType p _ | .setName p _ | .setOther p _ | .copySCIM p _ => Place.scims (R.scim p)
  | _ => []

/-- What calls may change, one after the other. -/
def targets (X : Ext) : List Step → Regs → Urn.Heap.Mem → List Place
  | [], _, _ => []
  | s :: ss, R, M => s.target R ++
      match M.act X.uni X.json (s.act R) with
      | .ok (M, g) => targets X ss (R.addGot g) M
      | _ => []

/-- Pointers of the model as addresses. -/
def Regs.addr (f g : Option Nat → Option Nat) (R : Regs) : Regs := ⟨R.urns.map f, R.scims.map g⟩

end Urn.GoLang
