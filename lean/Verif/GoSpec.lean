import Verif.GoApi4
import Verif.GoMono
import Verif.PropsParse
/-!
# The vocabulary of the theorems about the text of the package

`files` is the text of the files in /repo, `IsProgram` the program that the lexer and the parser of `GoSyntax.lean` find in it,
and `runFn` and `runMethod` of `GoSem.lean` call its functions and methods.
-/
set_option autoImplicit false
namespace Urn.GoLang

/-- The files of the package: kind.go, parsing_mode.go, options.go, scim/schema/type.go, scim.go, urn.go, urn8141.go and
machine.go. -/
def files : List (List String) :=
  [GoSource.kindGo, GoSource.parsingModeGo, GoSource.optionsGo, GoSource.schemaTypeGo, GoSource.scimGo, GoSource.urnGo, GoSource.urn8141Go,
    GoSource.machineGo.flatten]

/-- `P` is the program in these files. -/
def IsProgram (fs : List (List String)) (P : Prog) : Prop := ∃ ds, fs.mapM parseFile = some ds ∧ addDecls {} ds.flatten = some P

/-- A computation with a bound on the depth of calls and the number of jumps is done with this result: it is, within every
bound that is large enough. -/
def Does {α : Type} (f : Nat → Res α) (a : α) : Prop := ∃ N, ∀ n, N ≤ n → f n = .ok a

/-- The same with a panic. -/
def Panics {α : Type} (f : Nat → Res α) (p : Panic) : Prop := ∃ N, ∀ n, N ≤ n → f n = .panic p

/-- Slices of less than 2 GB are no problem. -/
theorem Ext.fits_of {s : Bytes} (X : Ext) (h : s.length < 2 ^ 31) : X.Fits s := by
  unfold Ext.Fits
  rcases X.bits_eq with e | e <;> rw [e] <;> omega

theorem Does.unique {α : Type} {f : Nat → Res α} {a b : α} (h : Does f a) (h' : Does f b) : a = b := by
  obtain ⟨N, h⟩ := h
  obtain ⟨N', h'⟩ := h'
  have := (h (N + N') (by omega)).symm.trans (h' (N + N') (by omega))
  cases this
  rfl

theorem Does.bind {α β : Type} {f : Nat → Res α} {g : Nat → α → Res β} {a : α} {b : β} (h : Does f a) (h' : Does (fun n => g n a) b) :
    Does (fun n => f n >>= g n) b := by
  obtain ⟨N, h⟩ := h
  obtain ⟨N', h'⟩ := h'
  exact ⟨N + N', fun n hn => by dsimp only; rw [h n (by omega)]; exact h' n (by omega)⟩

theorem Does.pure {α : Type} {a : α} : Does (fun _ => .ok a) a := ⟨0, fun _ _ => rfl⟩

theorem Does.of {α : Type} {f : Nat → Res α} {a : α} (hf : ∀ m n, m ≤ n → Le (f m) (f n)) {N : Nat} (h : f N = .ok a) : Does f a := by
  refine ⟨N, fun n hn => ?_⟩
  rcases hf N n hn with h1 | h1
  · rw [h] at h1; cases h1
  · rw [← h1, h]

theorem runFn_mono (P : Prog) (X : Ext) (f : String) (vs : List Val) (s : Bool) (h : Heap) (m n : Nat) (hn : m ≤ n) :
    Le (runFn P X m f vs s h) (runFn P X n f vs s h) :=
  .bind (.refl _) fun _ => callFn_mono (callN_mono P X m n hn) _ _ _ _ _

theorem runMethod_mono (P : Prog) (X : Ext) (v : Val) (f : String) (vs : List Val) (h : Heap) (m n : Nat) (hn : m ≤ n) :
    Le (runMethod P X m v f vs h) (runMethod P X n v f vs h) :=
  .bind (.refl _) fun _ => callFn_mono (callN_mono P X m n hn) _ _ _ _ _

/-! ## Clients -/

/-- The inputs of a machine are slices that Go can have. -/
def OpFits (X : Ext) : Urn.Op → Prop
  | .parse s => X.Fits s
  | _ => True

/-- `WithParsingMode(x)` for these modes. -/
def makeOptions (P : Prog) (X : Ext) (n : Nat) : List ParsingMode → Heap → Res (List Val × Heap)
  | [], h => .ok ([], h)
  | x :: xs, h => do
      let (v, h) ← runFn P X n "WithParsingMode" [.int "ParsingMode" x] false h
      let v ← one v
      let (vs, h) ← makeOptions P X n xs h
      pure (v :: vs, h)

/-- `Parse(s, WithParsingMode(x), ...)` -/
def callParse (P : Prog) (X : Ext) (n : Nat) (s : Val) (xs : List ParsingMode) (h : Heap) : Res (List Val × Heap) := do
  let (os, h) ← makeOptions P X n xs h
  runFn P X n "Parse" (s :: os) false h

/-- `NewMachine(WithParsingMode(x), ...)` -/
def callNew (P : Prog) (X : Ext) (n : Nat) (xs : List ParsingMode) (h : Heap) : Res (List Val × Heap) := do
  let (os, h) ← makeOptions P X n xs h
  runFn P X n "NewMachine" os false h

/-- A call of a method of a machine; the input of `Parse` is a new slice. -/
def callOp (P : Prog) (X : Ext) (n : Nat) (m : Val) : Urn.Op → Heap → Res (List Val × Heap)
  | .parse s, h => runMethod P X n m "Parse" [(newBytes h s).1] (newBytes h s).2
  | .withParsingMode x, h => runMethod P X n m "WithParsingMode" [.int "ParsingMode" x] h
  | .error, h => runMethod P X n m "Error" [] h

/-- Calls, one after the other. -/
def callOps (P : Prog) (X : Ext) (n : Nat) (m : Val) : List Urn.Op → Heap → Res (List (List Val) × Heap)
  | [], h => .ok ([], h)
  | op :: ops, h => do
      let (v, h) ← callOp P X n m op h
      let (vs, h) ← callOps P X n m ops h
      pure (v :: vs, h)

/-- A client of a machine: it makes one and then calls its methods. -/
def client (P : Prog) (X : Ext) (n : Nat) (xs : List ParsingMode) (ops : List Urn.Op) (h : Heap) : Res (List (List Val) × Heap) := do
  let (m, h) ← callNew P X n xs h
  let m ← one m
  callOps P X n m ops h

/-! ## Values -/

/-- The results of a call of a method of a machine: `UrnPtr` says that a pointer points to a struct with these fields (or is
nil), `errVal` is the error with the text of `Err.text`. -/
def OutIs (h : Heap) : Out → List Val → Prop
  | .parsed u e, vs => ∃ p, vs = [.ptr "URN" p, errVal e] ∧ UrnPtr h p u
  | .unit, vs => vs = []
  | .err e, vs => vs = [errVal e]

/-- The results of several calls. -/
def OutsAre (h : Heap) : List Out → List (List Val) → Prop
  | [], [] => True
  | o :: os, v :: vs => OutIs h o v ∧ OutsAre h os vs
  | _, _ => False

/-- A pointer to a machine that a client can have. -/
def MachineAt (h : Heap) (a : Nat) (m : Machine) : Prop :=
  Reachable m ∧ ∃ b n, h[a]? = some (.obj (machVal (Buf.val b n) m))

end Urn.GoLang
