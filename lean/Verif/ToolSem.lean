import Verif.RegexRune
import Verif.Tools
import Verif.ToolSyntax
import Verif.GoSem
/-!
# What programs in the Go of the tools do

An interpreter for the syntax trees of `ToolSyntax.lean`.  References are to The Go Programming Language Specification.

Simplifications:

* `int` is unbounded.
* A closure has copies of the variables it uses (no closure of the tools assigns to a variable, and none uses a variable that
  is assigned to later).
* Slices are lists of values, because nothing assigns to their elements.
* A program that breaks a rule that the Go compiler checks is `stuck`.
-/
set_option autoImplicit false
namespace Urn.ToolLang
open GoLang (BinOp get set bytesOf)
open Regex

/-- What a program does to the world. -/
inductive Event where
  | readFile (path : Bytes)
  | writeFile (path data : Bytes)
  | stderr (text : Bytes)
  deriving DecidableEq, Repr

/-- The world: the arguments of the program, what `os.ReadFile` returns (the text of the error or the contents), and what
`os.WriteFile` returns (the text of the error, or nothing). -/
structure Sys where
  args : List Bytes
  read : Bytes → Except Bytes Bytes
  write : Bytes → Bytes → Option Bytes

/-- The outcome of a computation. -/
inductive Res (α : Type) where
  | ok (a : α)
  /-- `os.Exit` -/
  | exit (code : Int) (w : List Event)
  | panic
  /-- not a Go program, or not one in this part of Go -/
  | stuck
  /-- not done within the bound on calls and rounds of loops -/
  | more

namespace Res
def bind {α β : Type} (x : Res α) (f : α → Res β) : Res β :=
  match x with
  | ok a => f a
  | exit c w => .exit c w
  | panic => .panic
  | stuck => .stuck
  | more => .more
instance : Monad Res where
  pure := ok
  bind := bind
@[simp] theorem pure_eq {α : Type} (a : α) : (pure a : Res α) = ok a := rfl
@[simp] theorem ok_bind {α β : Type} (a : α) (f : α → Res β) : (ok a >>= f) = f a := rfl
@[simp] theorem exit_bind {α β : Type} (c : Int) (w : List Event) (f : α → Res β) : ((exit c w : Res α) >>= f) = exit c w := rfl
@[simp] theorem panic_bind {α β : Type} (f : α → Res β) : ((panic : Res α) >>= f) = panic := rfl
@[simp] theorem stuck_bind {α β : Type} (f : α → Res β) : ((stuck : Res α) >>= f) = stuck := rfl
@[simp] theorem more_bind {α β : Type} (f : α → Res β) : ((more : Res α) >>= f) = more := rfl
/-- What is there, or stuck. -/
def some! {α : Type} : Option α → Res α
  | some a => ok a
  | none => stuck
@[simp] theorem some!_some {α : Type} (a : α) : some! (some a) = ok a := rfl
@[simp] theorem some!_none {α : Type} : some! (none : Option α) = stuck := rfl
end Res

inductive Val where
  | int (n : Int)
  | bool (b : Bool)
  | str (b : Bytes)
  /-- a `[]byte` -/
  | bytes (b : Bytes)
  | list (vs : List Val)
  | nil
  | err (text : Bytes)
  | regexp (r : Rx)
  /-- `os.Stderr` -/
  | stderr
  | func (params : List String) (body : Stmts) (env : List (String × Val))

abbrev Env := List (String × Val)

/-- The variables, and what has been done to the world so far. -/
structure State where
  env : Env
  world : List Event

/-- How a statement ends. -/
inductive Sig where
  | next
  | ret (vs : List Val)

structure Fn where
  name : String
  params : List String
  body : Stmts

/-- A program: variables of the package (which are not assigned to) and functions. -/
structure Prog where
  vars : Env := []
  funcs : List Fn := []

/-! ## Values -/

/-- "Arithmetic operators", "Comparison operators" -/
def binVal : BinOp → Val → Val → Option Val
  | .add, .int a, .int b => some (.int (a + b))
  | .sub, .int a, .int b => some (.int (a - b))
  | .add, .str a, .str b => some (.str (a ++ b))
  | .eq, .int a, .int b => some (.bool (decide (a = b)))
  | .ne, .int a, .int b => some (.bool (decide (a ≠ b)))
  | .lt, .int a, .int b => some (.bool (decide (a < b)))
  | .le, .int a, .int b => some (.bool (decide (a ≤ b)))
  | .gt, .int a, .int b => some (.bool (decide (b < a)))
  | .ge, .int a, .int b => some (.bool (decide (b ≤ a)))
  | .eq, .str a, .str b => some (.bool (decide (a = b)))
  | .ne, .str a, .str b => some (.bool (decide (a ≠ b)))
  | .eq, .err _, .nil => some (.bool false)
  | .ne, .err _, .nil => some (.bool true)
  | .eq, .nil, .nil => some (.bool true)
  | .ne, .nil, .nil => some (.bool false)
  | _, _, _ => none

/-- "Index expressions" -/
def indexVal (v : Val) (i : Int) : Res Val :=
  match v with
  | .list vs =>
      if 0 ≤ i then
        match vs[i.toNat]? with
        | some v => .ok v
        | none => .panic
      else .panic
  | _ => .stuck

/-- "Slice expressions" (of strings) -/
def sliceVal (v : Val) (i j : Int) : Res Val :=
  match v with
  | .str b => if 0 ≤ i ∧ i ≤ j ∧ j ≤ b.length then .ok (.str ((b.drop i.toNat).take (j.toNat - i.toNat))) else .panic
  | _ => .stuck

/-- "Length and capacity" -/
def lenVal : Val → Option Int
  | .str b => some b.length
  | .bytes b => some b.length
  | .list vs => some vs.length
  | .nil => some 0
  | _ => none

/-- Package fmt: the verbs `%s` and `%%`. -/
def sprintf : Bytes → List Val → Option Bytes
  | [], [] => some []
  | [], _ :: _ => none
  | c :: r, vs =>
      if c = 37 then
        match r with
        | [] => none
        | d :: r =>
            if d = 37 then (sprintf r vs).map fun x => 37 :: x
            else
              match vs with
              | .str b :: vs => if d = 115 then (sprintf r vs).map fun x => b ++ x else none
              | _ => none
      else (sprintf r vs).map fun x => c :: x

/-- The place where a match and its groups begin and end, as a `[]int`. -/
def indices : List (Nat × Nat) → List Val
  | [] => []
  | (a, b) :: gs => .int a :: .int b :: indices gs

/-! ## Other packages -/

/-- The packages that are imported. -/
def isExt (x : String) : Bool := x == "fmt" || x == "os" || x == "regexp" || x == "strings"

/-- The variables of other packages. -/
def extVar (S : Sys) (p f : String) : Option Val :=
  if p = "os" ∧ f = "Args" then some (.list (S.args.map .str))
  else if p = "os" ∧ f = "Stderr" then some .stderr
  else none

/-- The functions of other packages.  `strings.ToUpper` is given for ASCII texts. -/
def extCall (S : Sys) (p f : String) (vs : List Val) (w : List Event) : Res (List Val × List Event) :=
  if p = "fmt" ∧ f = "Sprintf" then
    match vs with
    | .str t :: vs => do let b ← .some! (sprintf t vs); pure ([.str b], w)
    | _ => .stuck
  else if p = "fmt" ∧ f = "Fprintln" then
    match vs with
    | [.stderr, .str b] => .ok ([], w ++ [.stderr (b ++ [10])])
    | _ => .stuck
  else if p = "os" ∧ f = "Exit" then
    match vs with
    | [.int c] => .exit c w
    | _ => .stuck
  else if p = "os" ∧ f = "ReadFile" then
    match vs with
    | [.str path] =>
        match S.read path with
        | .ok b => .ok ([.bytes b, .nil], w ++ [.readFile path])
        | .error e => .ok ([.nil, .err e], w ++ [.readFile path])
    | _ => .stuck
  else if p = "os" ∧ f = "WriteFile" then
    match vs with
    | [.str path, .bytes b, .int _] =>
        match S.write path b with
        | none => .ok ([.nil], w ++ [.writeFile path b])
        | some e => .ok ([.err e], w ++ [.writeFile path b])
    | _ => .stuck
  else if p = "regexp" ∧ f = "MustCompile" then
    match vs with
    | [.str b] => do let r ← .some! (readRx b); pure ([.regexp r], w)
    | _ => .stuck
  else if p = "strings" ∧ f = "ToUpper" then
    match vs with
    | [.str b] => if b.all (· < 128) then .ok ([.str (Tools.toUpper b)], w) else .stuck
    | _ => .stuck
  else .stuck

/-- Methods: of errors, and of `*regexp.Regexp`.  `ReplaceAllLiteral` copies the text between the matches;
`FindAllSubmatchIndex` with `-1` returns the places of all matches. -/
def method (v : Val) (f : String) (vs : List Val) : Res Val :=
  match v with
  | .err b => if f = "Error" ∧ vs.length = 0 then .ok (.str b) else .stuck
  | .regexp r =>
      if f = "ReplaceAllLiteral" then
        match vs with
        | [.bytes s, .bytes t] => .ok (.bytes (r.replaceAllLiteral s t))
        | _ => .stuck
      else if f = "FindAllSubmatchIndex" then
        match vs with
        | [.bytes s, .int n] => if n = -1 then .ok (.list ((r.findAll s).map fun x => .list (indices x))) else .stuck
        | _ => .stuck
      else .stuck
  | _ => .stuck

def one : List Val → Res Val
  | [v] => .ok v
  | _ => .stuck

/-! ## Expressions and statements

`call` runs the body of a function, `fuel` bounds the number of rounds of a loop. -/

abbrev Call := Env → Stmts → List Event → Res (List Val × List Event)

/-- Statements in a scope: the variables that they declare are gone afterwards. -/
def inScope (n : Nat) (r : Res (Sig × State)) : Res (Sig × State) := do
  let (s, st) ← r
  pure (s, { st with env := st.env.drop (st.env.length - n) })

def rangeLoop (f : Val → State → Res (Sig × State)) : List Val → State → Res (Sig × State)
  | [], st => .ok (.next, st)
  | v :: vs, st => do
      match ← f v st with
      | (.next, st) => rangeLoop f vs st
      | r => pure r

/-- A round of a loop: the condition, the body and the post statement.  There is no result if the condition is false. -/
def forRound (c : State → Res (List Val × State)) (body post : State → Res (Sig × State)) (st : State) :
    Res (Option Sig × State) := do
  match ← c st with
  | ([.bool true], st) =>
      match ← inScope st.env.length (body st) with
      | (.next, st) => do let (s, st) ← post st; pure (some s, st)
      | (s, st) => pure (some s, st)
  | ([.bool false], st) => pure (none, st)
  | _ => .stuck

/-- "For statements with for clause" -/
def forLoop (round : State → Res (Option Sig × State)) : Nat → State → Res (Sig × State)
  | 0, _ => .more
  | n + 1, st => do
      match ← round st with
      | (none, st) => pure (.next, st)
      | (some .next, st) => forLoop round n st
      | (some s, st) => pure (s, st)

/-- The values of the parameters. -/
def bindParams : List String → List Val → Option Env
  | [], [] => some []
  | p :: ps, v :: vs => (bindParams ps vs).map fun r => (p, v) :: r
  | _, _ => none

/-- Assignments to variables. -/
def assigns : List String → List Val → Env → Option Env
  | [], [], env => some env
  | x :: xs, v :: vs, env => (set x v env).bind (assigns xs vs)
  | _, _, _ => none

/-- A variable. -/
def lookup (P : Prog) (env : Env) (x : String) : Option Val :=
  match get x env with
  | some v => some v
  | none =>
      match get x P.vars with
      | some v => some v
      | none => if x = "nil" then some .nil else none

def len : List Val → Res Val
  | [v] => do let n ← .some! (lenVal v); pure (.int n)
  | _ => .stuck

def append : List Val → Res Val
  | [.list l, v] => .ok (.list (l ++ [v]))
  | _ => .stuck

def string : List Val → Res Val
  | [.bytes b] => .ok (.str b)
  | [.nil] => .ok (.str [])
  | _ => .stuck

/-- The built-in functions `len` and `append`, and the conversion `string`. -/
def builtin (f : String) : Option (List Val → Res Val) :=
  if f = "len" then some len else if f = "append" then some append else if f = "string" then some string else none

def findFn (P : Prog) (f : String) : Option Fn := P.funcs.find? fun g => g.name == f

section
variable (P : Prog) (S : Sys) (call : Call) (fuel : Nat)

/-- Calls of functions that are given by a name: a variable that is a function, built-in functions, and functions of the
package. -/
def callName (f : String) (vs : List Val) (st : State) : Res (List Val × State) :=
  match get f st.env with
  | some (.func ps body env) => do
      let e ← .some! (bindParams ps vs)
      let (r, w) ← call (e ++ env) body st.world
      pure (r, { st with world := w })
  | some _ => .stuck
  | none =>
      match builtin f with
      | some g => do let v ← g vs; pure ([v], st)
      | none => do
          let g ← .some! (findFn P f)
          let e ← .some! (bindParams g.params vs)
          let (r, w) ← call e g.body st.world
          pure (r, { st with world := w })

mutual
/-- The values of an expression (calls can have none or several). -/
def eval : Expr → State → Res (List Val × State)
  | .id x, st => do let v ← .some! (lookup P st.env x); pure ([v], st)
  | .num n, st => .ok ([.int n], st)
  | .str b, st => .ok ([.str (bytesOf b)], st)
  | .neg e, st => do
      match ← eval e st with
      | ([.int n], st) => pure ([.int (-n)], st)
      | _ => .stuck
  | .sel e f, st =>
      match e with
      | .id p => if get p st.env = none ∧ isExt p then do let v ← .some! (extVar S p f); pure ([v], st) else .stuck
      | _ => .stuck
  | .index e i, st => do
      let (v, st) ← eval e st
      let v ← one v
      match ← eval i st with
      | ([.int n], st) => do let v ← indexVal v n; pure ([v], st)
      | _ => .stuck
  | .slice e i j, st => do
      let (v, st) ← eval e st
      let v ← one v
      match ← eval i st with
      | ([.int a], st) =>
          match ← eval j st with
          | ([.int b], st) => do let v ← sliceVal v a b; pure ([v], st)
          | _ => .stuck
      | _ => .stuck
  | .from e i, st => do
      let (v, st) ← eval e st
      let v ← one v
      match ← eval i st with
      | ([.int a], st) => do
          let n ← .some! (lenVal v)
          let v ← sliceVal v a n
          pure ([v], st)
      | _ => .stuck
  | .call (.id f) args, st => do
      let (vs, st) ← evals args st
      callName P call f vs st
  | .call (.sel e f) args, st =>
      match e with
      | .id p =>
          if get p st.env = none ∧ isExt p then do
            let (vs, st) ← evals args st
            let (r, w) ← extCall S p f vs st.world
            pure (r, { st with world := w })
          else do
            let v ← .some! (lookup P st.env p)
            let (vs, st) ← evals args st
            let r ← method v f vs
            pure ([r], st)
      | _ => .stuck
  | .call _ _, _ => .stuck
  | .bin o a b, st => do
      let (x, st) ← eval a st
      let x ← one x
      match o, x with
      | .and, .bool false => pure ([.bool false], st)
      | .and, .bool true => eval b st
      | .or, .bool true => pure ([.bool true], st)
      | .or, .bool false => eval b st
      | o, x => do
          let (y, st) ← eval b st
          let y ← one y
          let v ← .some! (binVal o x y)
          pure ([v], st)
  | .bytes e, st => do
      match ← eval e st with
      | ([.str b], st) => pure ([.bytes b], st)
      | _ => .stuck
  | .empty, st => .ok ([.list []], st)
  | .func ps body, st => .ok ([.func ps body st.env], st)
def evals : Exprs → State → Res (List Val × State)
  | .nil, st => .ok ([], st)
  | .cons e es, st => do
      let (a, st) ← eval e st
      let (b, st) ← evals es st
      pure (a ++ b, st)
end

mutual
def exec : Stmt → State → Res (Sig × State)
  | .expr e, st => do let (_, st) ← eval P S call e st; pure (.next, st)
  | .define xs e, st => do
      let (vs, st) ← evals P S call e st
      if xs.length = vs.length then pure (.next, { st with env := xs.zip vs ++ st.env }) else .stuck
  | .assign xs e, st => do
      let (vs, st) ← evals P S call e st
      let env ← .some! (assigns xs vs st.env)
      pure (.next, { st with env := env })
  | .add x e, st => do
      let (vs, st) ← eval P S call (.bin .add (.id x) e) st
      let env ← .some! (assigns [x] vs st.env)
      pure (.next, { st with env := env })
  | .ret es, st => do let (vs, st) ← evals P S call es st; pure (.ret vs, st)
  | .if_ init c a b, st => inScope st.env.length do
      match ← execs init st with
      | (.next, st) =>
          match ← eval P S call c st with
          | ([.bool true], st) => inScope st.env.length (execs a st)
          | ([.bool false], st) => inScope st.env.length (execs b st)
          | _ => .stuck
      | _ => .stuck
  | .for_ init c post body, st => inScope st.env.length do
      match ← execs init st with
      | (.next, st) =>
          forLoop (forRound (eval P S call c) (fun st => execs body st) (fun st => execs post st)) fuel st
      | _ => .stuck
  | .range x e body, st => do
      match ← eval P S call e st with
      | ([.list vs], st) =>
          rangeLoop (fun v st => inScope st.env.length (execs body { st with env := (x, v) :: st.env })) vs st
      | _ => .stuck
def execs : Stmts → State → Res (Sig × State)
  | .nil, st => .ok (.next, st)
  | .cons s ss, st => do
      match ← exec s st with
      | (.next, st) => execs ss st
      | r => pure r
end
end

/-- Run the body of a function, with a bound on the depth of calls and on the rounds of loops. -/
def callN (P : Prog) (S : Sys) : Nat → Call
  | 0, _, _, _ => .more
  | n + 1, env, body, w => do
      match ← execs P S (callN P S n) n body ⟨env, w⟩ with
      | (.ret vs, st) => pure (vs, st.world)
      | (.next, st) => pure ([], st.world)

/-! ## Programs -/

/-- "Package initialization": the variables get their values before `main` is called. -/
def addDecl (S : Sys) (P : Prog) : Decl → Res Prog
  | .var x e => do
      match ← eval P S (fun _ _ _ => .stuck) e ⟨[], []⟩ with
      | ([v], _) => pure { P with vars := P.vars ++ [(x, v)] }
      | _ => .stuck
  | .func f ps b => .ok { P with funcs := P.funcs ++ [⟨f, ps, b⟩] }

def addDecls (S : Sys) : List Decl → Prog → Res Prog
  | [], P => .ok P
  | d :: ds, P => do let P ← addDecl S P d; addDecls S ds P

/-- Run a program, given by the lines of its only file: the exit code, and what it did to the world.  ("Program execution": when
`main` returns, the program exits; the code is 0.) -/
def runProgram (lines : List String) (S : Sys) (n : Nat) : Res (Int × List Event) :=
  match parseFile lines with
  | none => .stuck
  | some ds =>
      match addDecls S ds {} with
      | .ok P =>
          match findFn P "main" with
          | some g =>
              match callN P S n [] g.body [] with
              | .ok (_, w) => .ok (0, w)
              | .exit c w => .ok (c, w)
              | .panic => .panic
              | .stuck => .stuck
              | .more => .more
          | none => .stuck
      | .exit c w => .ok (c, w)
      | .panic => .panic
      | .stuck => .stuck
      | .more => .more

end Urn.ToolLang
