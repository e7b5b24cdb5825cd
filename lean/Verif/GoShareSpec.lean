import Verif.GoSliceSpec
import Verif.GoSpec
/-!
# Goroutines that call methods of machines
-/
set_option autoImplicit false
namespace Urn.GoLang

/-- A call of a method of a machine; `b` is the slice that `Parse` is given and `s` what is in it. -/
inductive MCall where
  | parse (b : Buf) (s : Bytes)
  | withParsingMode (x : ParsingMode)
  | error

/-- The call in the model. -/
def MCall.op : MCall → Urn.Op
  | .parse _ s => .parse s
  | .withParsingMode x => .withParsingMode x
  | .error => .error

/-- The call in the text, for the machine at the address `a`. -/
def MCall.run (P : Prog) (X : Ext) (n a : Nat) : MCall → Io (List Val)
  | .parse b s => runMethodT P X n (.ptr "machine" (some a)) "Parse" [b.val s.length]
  | .withParsingMode x => runMethodT P X n (.ptr "machine" (some a)) "WithParsingMode" [.int "ParsingMode" x]
  | .error => runMethodT P X n (.ptr "machine" (some a)) "Error" []

/-- The slice is in memory and Go can have it. -/
def MCall.Fits (X : Ext) (h : Heap) : MCall → Prop
  | .parse b s => b.has h s ∧ X.Fits s
  | _ => True

/-- On one machine, these calls use a field that one of them writes to.  `Parse` writes to the fields for the text and for the error, and reads where
to start; `WithParsingMode` writes to the fields for the mode and for where to start; `Error` reads the field for the error. -/
def MCall.Mixes : MCall → MCall → Prop
  | .parse _ _, _ | _, .parse _ _ => True
  | .withParsingMode _, .withParsingMode _ => True
  | _, _ => False

/-- If the call sets a mode, it is one that the package has. -/
def MCall.Known : MCall → Prop
  | .withParsingMode x => KnownMode x
  | _ => True

/-- `m.Parse(s)` writes to the byte of `s` with index `j`: so it is in the model (`Conc.lean`). -/
def MCall.WritesAt (m : Machine) : MCall → (j : Nat) → Prop
  | .parse _ s, j => ∃ c, (j, c) ∈ ((m.parseP s.length).alone s).2.2
  | _, _ => False

/-- The byte with index `j` of the slice of the first call is in the slice of the second. -/
def MCall.Shares : MCall → (j : Nat) → MCall → Prop
  | .parse b _, j, .parse b' s' => b'.Holds s'.length b j
  | _, _, _ => False

/-- The slice of the call, if it has one, reads as before. -/
def MCall.Keeps (l : Heap) : MCall → Prop
  | .parse b s => b.Reads l s
  | _ => True

/-- The call is of `Parse`, and the text is accepted. -/
def MCall.Accepts (m : Machine) : MCall → Prop
  | .parse _ s => ∃ r, m.parse s = .ok r ∧ r.urn ≠ none
  | _ => True

/-- as `callNew` -/
def callNewT (P : Prog) (X : Ext) (n : Nat) (xs : List ParsingMode) : Io (List Val) := do
  let os ← makeOptionsT P X n xs
  runFnT P X n "NewMachine" os false

/-- as `callOp` -/
def callOpT (P : Prog) (X : Ext) (n : Nat) (m : Val) : Urn.Op → Io (List Val)
  | .parse s => do let b ← newBytesT s; runMethodT P X n m "Parse" [b]
  | .withParsingMode x => runMethodT P X n m "WithParsingMode" [.int "ParsingMode" x]
  | .error => runMethodT P X n m "Error" []

/-- as `callOps` -/
def callOpsT (P : Prog) (X : Ext) (n : Nat) (m : Val) : List Urn.Op → Io (List (List Val))
  | [] => pure []
  | op :: ops => do
      let v ← callOpT P X n m op
      let vs ← callOpsT P X n m ops
      pure (v :: vs)

/-- A goroutine that makes a machine and then calls its methods, with new slices: as `client`. -/
def clientT (P : Prog) (X : Ext) (n : Nat) (xs : List ParsingMode) (ops : List Urn.Op) : Io (List (List Val)) := do
  let m ← callNewT P X n xs
  let m ← .done (one m)
  callOpsT P X n m ops

end Urn.GoLang
