import Verif.GoSyntax
import Verif.Urn
/-!
# What programs in this part of Go do

An interpreter for the syntax trees of `GoSyntax.lean`.  References are to The Go Programming Language Specification.

Simplifications:

* Lengths do not have to fit into an `int`: the memory is as large as a program needs.
* Variables are not shared: a closure has copies of the variables it uses, `&x` is only understood in the call of
  `json.Unmarshal`, and a method with a pointer receiver that is called on a variable gets a pointer to a copy of it.  (No
  closure of the package assigns to a variable, and no such method writes to its receiver.)
* Slices other than `[]byte` are lists of values, because nothing assigns to their elements.
* There is one space of names for the package `urn` and the package `scimschema`.
* A program that breaks a rule that the Go compiler checks is `stuck`.
-/
set_option autoImplicit false
namespace Urn.GoLang

/-- The outcome of a computation. -/
inductive Res (α : Type) where
  | ok (a : α)
  | panic (p : Panic)
  /-- not a Go program, or not one in this part of Go -/
  | stuck
  /-- not done within the bound on calls and jumps -/
  | more

namespace Res
def bind {α β : Type} (x : Res α) (f : α → Res β) : Res β :=
  match x with
  | ok a => f a
  | panic p => .panic p
  | stuck => .stuck
  | more => .more
instance : Monad Res where
  pure := ok
  bind := bind
@[simp] theorem pure_eq {α : Type} (a : α) : (pure a : Res α) = ok a := rfl
@[simp] theorem ok_bind {α β : Type} (a : α) (f : α → Res β) : (ok a >>= f) = f a := rfl
@[simp] theorem panic_bind {α β : Type} (p : Panic) (f : α → Res β) : ((panic p : Res α) >>= f) = panic p := rfl
@[simp] theorem stuck_bind {α β : Type} (f : α → Res β) : ((stuck : Res α) >>= f) = stuck := rfl
@[simp] theorem more_bind {α β : Type} (f : α → Res β) : ((more : Res α) >>= f) = more := rfl
/-- What is there, or stuck. -/
def some! {α : Type} : Option α → Res α
  | some a => ok a
  | none => stuck
@[simp] theorem some!_some {α : Type} (a : α) : some! (some a) = ok a := rfl
end Res

inductive Val where
  /-- an integer of a type; constants without a type have the type `""` -/
  | int (t : String) (n : Int)
  | bool (b : Bool)
  | str (b : Bytes)
  /-- `nil` without a type, and the nil slices, functions and interfaces -/
  | nil
  /-- a pointer to a `t`; `none` is nil -/
  | ptr (t : String) (a : Option Nat)
  /-- a `[]byte`: the array, the first element, the length and the capacity -/
  | bytes (a off len cap : Nat)
  | list (vs : List Val)
  | struct (t : String) (fs : List (String × Val))
  /-- an error with a text -/
  | err (text : Bytes)
  | func (params : List Param) (results : List Ty) (body : Stmts) (env : List (String × Val))

/-- What is at an address: a struct, an array of bytes, an array in which the program must not write to the byte with index `j`, an array
of which the program may use only some bytes (those from index `lo` on that are in `b`), or something that the program must not use at all.
A program that does what it must not do is stuck. -/
inductive Cell where
  | obj (v : Val)
  | arr (b : Bytes)
  | rom (j : Nat) (b : Bytes)
  | win (lo : Nat) (b : Bytes)
  | none

abbrev Env := List (String × Val)
abbrev Heap := List Cell

/-- The variables and the memory. -/
structure State where
  env : Env
  heap : Heap

/-- How a statement ends. -/
inductive Sig where
  | next
  | goto (l : String)
  | ret (vs : List Val)

structure Fn where
  recv : Option Param
  name : String
  params : List Param
  results : List Ty
  body : Stmts

/-- A program: constants and variables of the package (which are not assigned to), types, functions and methods. -/
structure Prog where
  consts : List (String × Val) := []
  types : List (String × TyDecl) := []
  funcs : List Fn := []

/-- What is not in the text: the size of an `int` ("either 32 or 64 bits"), and the functions of other packages:
`strings.ToLower` on texts that are not ASCII, `encoding/json` on strings, the text of its errors. -/
structure Ext where
  bits : Nat
  bits_eq : bits = 32 ∨ bits = 64
  uni : Bytes → Bytes
  json : JsonCodec
  jsonErr : Bytes → Bytes

/-- Texts that slices and strings can have: "the length is an `int`". -/
def Ext.Fits (X : Ext) (s : Bytes) : Prop := s.length < 2 ^ (X.bits - 1)

/-- The string that a JSON text stands for is a string that Go can have. -/
def Ext.FitsJson (X : Ext) (text : Bytes) : Prop := ∀ s, X.json.unmarshal text = some s → X.Fits s

def get {α : Type} (x : String) : List (String × α) → Option α
  | [] => none
  | (y, v) :: r => if y = x then some v else get x r

def set {α : Type} (x : String) (v : α) : List (String × α) → Option (List (String × α))
  | [] => none
  | (y, w) :: r => if y = x then some ((y, v) :: r) else (set x v r).map fun r => (y, w) :: r

def bytesOf (l : List Nat) : Bytes := l.map UInt8.ofNat

/-! ## Values -/

/-- "The zero value". -/
def zero (P : Prog) : Nat → Ty → Val
  | 0, _ => .nil
  | n + 1, .name t =>
      if t = "int" ∨ t = "byte" then .int t 0
      else if t = "string" then .str []
      else if t = "bool" then .bool false
      else
        match get t P.types with
        | some (.alias u) => match zero P n u with | .int _ k => .int t k | v => v
        | some (.struct fs) => .struct t (fs.map fun f => (f.name, zero P n f.ty))
        | _ => .nil
  | _ + 1, .ptr (.name t) => .ptr t none
  | _ + 1, _ => .nil

/-- "Assignability": a constant gets the type of the variable, and so does `nil`.  `old` is any value of the variable. -/
def coerce (old v : Val) : Val :=
  match old, v with
  | .int t _, .int s n => if s = "" then .int t n else .int s n
  | .ptr t _, .nil => .ptr t none
  | _, v => v

/-- The type of a variable that is declared with `:=`. -/
def coerceDefault (v : Val) : Val := coerce (.int "int" 0) v

/-- "Integer overflow": bytes wrap around, and so does `int` (here of `w` bits) and the types that are defined by it.
Constants without a type do not. -/
def wrapInt (w : Nat) (t : String) (n : Int) : Int := if t = "byte" then n % 256 else if t = "" then n else n.bmod (2 ^ w)

/-- The common type of two operands. -/
def common (s t : String) : Option String := if s = t then some s else if s = "" then some t else if t = "" then some s else none

/-- "Comparison operators": `==` -/
def eqVal : Val → Val → Option Bool
  | .int s a, .int t b => (common s t).map fun _ => a == b
  | .str a, .str b => some (a == b)
  | .bool a, .bool b => some (a == b)
  | .nil, .nil => some true
  | .ptr _ a, .nil => some a.isNone
  | .nil, .ptr _ a => some a.isNone
  | .err _, .nil => some false
  | .nil, .err _ => some false
  | _, _ => none

/-- The operators that evaluate both operands. -/
def binVal (w : Nat) (o : BinOp) (x y : Val) : Option Val :=
  match o, x, y with
  | .add, .str a, .str b => some (.str (a ++ b))
  | .add, .int s a, .int t b => (common s t).map fun u => .int u (wrapInt w u (a + b))
  | .sub, .int s a, .int t b => (common s t).map fun u => .int u (wrapInt w u (a - b))
  | .lt, .int s a, .int t b => (common s t).map fun _ => .bool (a < b)
  | .le, .int s a, .int t b => (common s t).map fun _ => .bool (a ≤ b)
  | .gt, .int s a, .int t b => (common s t).map fun _ => .bool (a > b)
  | .ge, .int s a, .int t b => (common s t).map fun _ => .bool (a ≥ b)
  | .eq, x, y => (eqVal x y).map .bool
  | .ne, x, y => (eqVal x y).map fun b => .bool (!b)
  | _, _, _ => none

/-- Package fmt: the verbs `%d`, `%s` and `%%`. -/
def sprintf : Bytes → List Val → Option Bytes
  | [], [] => some []
  | [], _ :: _ => none
  | c :: r, vs =>
      if c = 37 then
        match r with
        | [] => none
        | d :: r =>
            if d = 37 then (sprintf r vs).map fun x => 37 :: x
            else
              match vs with
              | .int _ n :: vs => if d = 100 then (sprintf r vs).map fun x => Urn.lit (toString n) ++ x else none
              | .str b :: vs => if d = 115 then (sprintf r vs).map fun x => b ++ x else none
              | _ => none
      else (sprintf r vs).map fun x => c :: x

/-! ## Memory -/

def loadObj (h : Heap) (a : Nat) : Res Val :=
  match h[a]? with
  | some (.obj v) => .ok v
  | _ => .stuck

/-- Some bytes: `n` bytes from index `i` on. -/
def cutBytes (b : Bytes) (i n : Nat) : Option Bytes := if i + n ≤ b.length then some ((b.drop i).take n) else none

/-- `n` bytes of an array from index `i` on, if the program may read them. -/
def Cell.cut : Cell → (i n : Nat) → Option Bytes
  | .arr b, i, n | .rom _ b, i, n => cutBytes b i n
  | .win lo b, i, n => if lo ≤ i then cutBytes b (i - lo) n else Option.none
  | _, _, _ => Option.none

/-- The array with the byte at index `i` changed, if the program may write to it. -/
def Cell.poke : Cell → (i : Nat) → UInt8 → Option Cell
  | .arr b, i, c => if i < b.length then some (.arr (b.set i c)) else Option.none
  | .rom j b, i, c => if i < b.length ∧ i ≠ j then some (.rom j (b.set i c)) else Option.none
  | .win lo b, i, c => if lo ≤ i ∧ i - lo < b.length then some (.win lo (b.set (i - lo) c)) else Option.none
  | _, _, _ => Option.none

/-- `n` bytes of the array at address `a`, from index `i` on. -/
def loadBytes (h : Heap) (a i n : Nat) : Res Bytes :=
  match h[a]? with
  | some c => .some! (c.cut i n)
  | none => .stuck

/-- Change the byte at index `i` of the array at address `a`. -/
def storeByte (h : Heap) (a i : Nat) (x : UInt8) : Res Heap :=
  match h[a]? with
  | some c => do let c ← .some! (c.poke i x); pure (h.set a c)
  | none => .stuck

/-- "Selectors": a field of a struct, or of the struct that a pointer points to. -/
def field (h : Heap) (v : Val) (f : String) : Res Val :=
  match v with
  | .struct _ fs => .some! (get f fs)
  | .ptr _ none => .panic .nilDeref
  | .ptr _ (some a) => do
      match ← loadObj h a with
      | .struct _ fs => .some! (get f fs)
      | _ => .stuck
  | _ => .stuck

/-- "Index expressions" -/
def indexVal (h : Heap) (v : Val) (i : Int) : Res Val :=
  match v with
  | .bytes a off len _ =>
      if 0 ≤ i ∧ i < len then do
        match ← loadBytes h a (off + i.toNat) 1 with
        | [c] => .ok (.int "byte" c.toNat)
        | _ => .stuck
      else .panic .index
  | .list vs =>
      if 0 ≤ i then
        match vs[i.toNat]? with
        | some v => .ok v
        | none => .panic .index
      else .panic .index
  | .nil => .panic .index
  | _ => .stuck

/-- "Slice expressions" -/
def sliceVal (v : Val) (i j : Int) : Res Val :=
  match v with
  | .bytes a off _ cap =>
      if 0 ≤ i ∧ i ≤ j ∧ j ≤ cap then .ok (.bytes a (off + i.toNat) (j.toNat - i.toNat) (cap - i.toNat)) else .panic .slice
  | .nil => if 0 ≤ i ∧ i ≤ j ∧ j ≤ 0 then .ok .nil else .panic .slice
  | _ => .stuck

/-- The conversion `string(v)`. -/
def toStr (h : Heap) (v : Val) : Res Val :=
  match v with
  | .bytes a off len _ => do let b ← loadBytes h a off len; pure (.str b)
  | .nil => .ok (.str [])
  | .str b => .ok (.str b)
  | _ => .stuck

/-- A new array. -/
def newBytes (h : Heap) (b : Bytes) : Val × Heap := (.bytes h.length 0 b.length b.length, h ++ [.arr b])

/-- `v.f = w` -/
def setField (h : Heap) (v : Val) (f : String) (w : Val) : Res Heap :=
  match v with
  | .ptr _ none => .panic .nilDeref
  | .ptr _ (some a) => do
      match ← loadObj h a with
      | .struct t fs => do
          let old ← .some! (get f fs)
          let fs ← .some! (set f (coerce old w) fs)
          pure (h.set a (.obj (.struct t fs)))
      | _ => .stuck
  | _ => .stuck

/-- `v[i] = w` -/
def setIndex (h : Heap) (v : Val) (i : Int) (w : Val) : Res Heap :=
  match v, w with
  | .bytes a off len _, .int _ n =>
      if 0 ≤ i ∧ i < len then storeByte h a (off + i.toNat) (UInt8.ofNat n.toNat) else .panic .index
  | .nil, _ => .panic .index
  | _, _ => .stuck

/-- `*v = w` -/
def setDeref (h : Heap) (v : Val) (w : Val) : Res Heap :=
  match v with
  | .ptr _ none => .panic .nilDeref
  | .ptr _ (some a) => do let _ ← loadObj h a; pure (h.set a (.obj w))
  | _ => .stuck

/-! ## Calls -/

/-- The values of the parameters; `spread` if the last argument is followed by `...`. -/
def bindParams (P : Prog) (spread : Bool) : List Param → List Val → Option Env
  | [], [] => some []
  | [p], vs =>
      if p.variadic then
        if spread then match vs with | [v] => some [(p.name, v)] | _ => none
        else some [(p.name, .list vs)]
      else match vs with | [v] => some [(p.name, coerce (zero P 3 p.ty) v)] | _ => none
  | p :: ps, v :: vs =>
      if p.variadic then none else (bindParams P spread ps vs).map fun r => (p.name, coerce (zero P 3 p.ty) v) :: r
  | _, _ => none

def findFn (P : Prog) (r : Option Ty) (f : String) : Option Fn := P.funcs.find? fun g => g.name == f && g.recv.map (·.ty) == r

/-- "Method sets", "Calls", and the promoted methods of embedded fields: the method, its receiver, and the memory. -/
def method (P : Prog) (h : Heap) (v : Val) (f : String) : Res (Fn × Val × Heap) :=
  match v with
  | .int t _ => do let g ← .some! (findFn P (some (.name t)) f); pure (g, v, h)
  | .ptr t a =>
      match findFn P (some (.ptr (.name t))) f with
      | some g => .ok (g, v, h)
      | none =>
          match findFn P (some (.name t)) f with
          | none => .stuck
          | some g =>
              match a with
              | none => .panic .nilDeref
              | some a => do let w ← loadObj h a; pure (g, w, h)
  | .struct t fs =>
      match findFn P (some (.name t)) f with
      | some g => .ok (g, v, h)
      | none =>
          match findFn P (some (.ptr (.name t))) f with
          | some g => .ok (g, .ptr t (some h.length), h ++ [.obj v])
          | none =>
              match fs with
              | [(e, .ptr s a)] =>
                  if e = s then
                    match findFn P (some (.ptr (.name s))) f with
                    | some g => .ok (g, .ptr s a, h)
                    | none => .stuck
                  else .stuck
              | _ => .stuck
  | _ => .stuck

/-- The packages that are imported, except for scimschema. -/
def isExt (x : String) : Bool := x == "fmt" || x == "strings" || x == "json"

/-- The functions of other packages. -/
def extCall (X : Ext) (p f : String) (vs : List Val) (h : Heap) : Res (List Val × Heap) :=
  if p = "fmt" ∧ f = "Errorf" then
    match vs with
    | .str t :: vs => do let b ← .some! (sprintf t vs); pure ([.err b], h)
    | _ => .stuck
  else if p = "fmt" ∧ f = "Sprintf" then
    match vs with
    | .str t :: vs => do let b ← .some! (sprintf t vs); pure ([.str b], h)
    | _ => .stuck
  else if p = "strings" ∧ f = "ToLower" then
    match vs with
    | [.str b] => .ok ([.str (toLower X.uni b)], h)
    | _ => .stuck
  else if p = "json" ∧ f = "Marshal" then
    match vs with
    | [.str b] => let (v, h) := newBytes h (X.json.marshal b); .ok ([v, .nil], h)
    | _ => .stuck
  else .stuck

def one : List Val → Res Val
  | [v] => .ok v
  | _ => .stuck

/-- The elements of a composite literal: `&T{f: e}`, `T{e}`. -/
def fill (P : Prog) (t : String) (es : List (String × Val)) : Res Val :=
  match zero P 3 (.name t) with
  | .struct t fs =>
      match es, fs with
      | [("", v)], [(f, w)] => .ok (.struct t [(f, coerce w v)])
      | es, fs => do
          let fs ← es.foldlM (init := fs) fun fs (k, v) => do
            let old ← .some! (get k fs)
            .some! (set k (coerce old v) fs)
          pure (.struct t fs)
  | _ => .stuck

/-! ## Expressions and statements

`call` runs the body of a function, `fuel` bounds the number of jumps in a block. -/

abbrev Call := List Ty → Env → Stmts → Heap → Res (List Val × Heap)

/-- Statements in a scope: the variables that they declare are gone afterwards. -/
def inScope (n : Nat) (r : Res (Sig × State)) : Res (Sig × State) := do
  let (s, st) ← r
  pure (s, { st with env := st.env.drop (st.env.length - n) })

/-- "Goto statements": if a statement of a block jumps to a label of the block, the block goes on from there.  `entry` runs
the block from a label. -/
def jumps (entry : String → State → Option (Res (Sig × State))) : Nat → Res (Sig × State) → Res (Sig × State)
  | n, .ok (.goto l, st) =>
      match entry l st with
      | none => .ok (.goto l, st)
      | some r => match n with | 0 => .more | n + 1 => jumps entry n r
  | _, r => r

def rangeLoop (f : Val → State → Res (Sig × State)) : List Val → State → Res (Sig × State)
  | [], st => .ok (.next, st)
  | v :: vs, st => do
      match ← f v st with
      | (.next, st) => rangeLoop f vs st
      | r => pure r

/-- A variable, or a constant of the package. -/
def lookup (P : Prog) (env : Env) (x : String) : Option Val :=
  match get x env with
  | some v => some v
  | none =>
      match get x P.consts with
      | some v => some v
      | none => if x = "nil" then some .nil else if x = "true" then some (.bool true) else if x = "false" then some (.bool false) else none

section
variable (P : Prog) (X : Ext) (call : Call) (fuel : Nat)

/-- Call a function or a method that has been found. -/
def callFn (g : Fn) (recv : Option Val) (vs : List Val) (spread : Bool) (h : Heap) : Res (List Val × Heap) := do
  let env ← .some! (bindParams P spread g.params vs)
  let env ← match g.recv, recv with
    | some p, some v => pure ((p.name, v) :: env)
    | none, none => pure env
    | _, _ => .stuck
  call g.results env g.body h

/-- Calls of functions that are given by a name: a variable that is a function, the built-in functions `len` and `append`, the
conversion `string`, and functions of the package. -/
def callName (f : String) (vs : List Val) (spread : Bool) (st : State) : Res (List Val × State) :=
  match get f st.env with
  | some (.func ps rs body env) => do
      let e ← .some! (bindParams P spread ps vs)
      let (r, h) ← call rs (e ++ env) body st.heap
      pure (r, { st with heap := h })
  | some .nil => .panic .nilDeref
  | some _ => .stuck
  | none =>
      if f = "len" then
        match vs with
        | [.bytes _ _ n _] => .ok ([.int "int" n], st)
        | [.nil] => .ok ([.int "int" 0], st)
        | _ => .stuck
      else if f = "append" then
        match vs with
        | [.list l, v] => .ok ([.list (l ++ [v])], st)
        | [.nil, v] => .ok ([.list [v]], st)
        | _ => .stuck
      else if f = "string" then
        match vs with
        | [v] => do let s ← toStr st.heap v; pure ([s], st)
        | _ => .stuck
      else do
        let g ← .some! (findFn P none f)
        let (r, h) ← callFn P call g none vs spread st.heap
        pure (r, { st with heap := h })

mutual
/-- The values of an expression (calls can have none or several). -/
def eval : Expr → State → Res (List Val × State)
  | .id x, st => do let v ← .some! (lookup P st.env x); pure ([v], st)
  | .num n, st => .ok ([.int "" n], st)
  | .str b, st => .ok ([.str (bytesOf b)], st)
  | .sel e f, st => do
      let (v, st) ← eval e st
      let v ← one v
      let v ← field st.heap v f
      pure ([v], st)
  | .index e i, st => do
      let (v, st) ← eval e st
      let v ← one v
      let (w, st) ← eval i st
      match w with
      | [.int _ n] => do let v ← indexVal st.heap v n; pure ([v], st)
      | _ => .stuck
  | .slice e i j, st => do
      let (v, st) ← eval e st
      let v ← one v
      let (w, st) ← eval i st
      let (z, st) ← eval j st
      match w, z with
      | [.int _ i], [.int _ j] => do let v ← sliceVal v i j; pure ([v], st)
      | _, _ => .stuck
  | .call (.id f) args spread, st => do
      let (vs, st) ← evals args st
      callName P call f vs spread st
  | .call (.sel e f) args spread, st =>
      match e with
      | .id p =>
          if get p st.env = none ∧ isExt p then
            if p = "json" ∧ f = "Unmarshal" then
              -- `json.Unmarshal(bytes, &x)` sets a variable
              match args with
              | .cons b (.cons (.un .addr (.id x)) .nil) => do
                  let (v, st) ← eval b st
                  let v ← one v
                  match ← toStr st.heap v with
                  | .str b =>
                      match X.json.unmarshal b with
                      | none => pure ([.err (X.jsonErr b)], st)
                      | some s => do let env ← .some! (set x (.str s) st.env); pure ([.nil], { st with env := env })
                  | _ => .stuck
              | _ => .stuck
            else do
              let (vs, st) ← evals args st
              let (r, h) ← extCall X p f vs st.heap
              pure (r, { st with heap := h })
          else if get p st.env = none ∧ p = "scimschema" then do
            let (vs, st) ← evals args st
            callName P call f vs spread st
          else do
            let v ← .some! (lookup P st.env p)
            let (g, w, h) ← method P st.heap v f
            let (vs, st) ← evals args { st with heap := h }
            let (r, h) ← callFn P call g (some w) vs spread st.heap
            pure (r, { st with heap := h })
      | e => do
          let (v, st) ← eval e st
          let v ← one v
          let (g, w, h) ← method P st.heap v f
          let (vs, st) ← evals args { st with heap := h }
          let (r, h) ← callFn P call g (some w) vs spread st.heap
          pure (r, { st with heap := h })
  | .call _ _ _, _ => .stuck
  | .un .not e, st => do
      match ← eval e st with
      | ([.bool b], st) => pure ([.bool (!b)], st)
      | _ => .stuck
  | .un .deref e, st => do
      match ← eval e st with
      | ([.ptr _ none], _) => .panic .nilDeref
      | ([.ptr _ (some a)], st) => do let v ← loadObj st.heap a; pure ([v], st)
      | _ => .stuck
  | .un .addr e, st =>
      match e with
      | .lit (.name t) es => do
          let (es, st) ← evalElems es st
          let v ← fill P t es
          pure ([.ptr t (some st.heap.length)], { st with heap := st.heap ++ [.obj v] })
      | _ => .stuck
  | .bin o a b, st => do
      let (x, st) ← eval a st
      let x ← one x
      match o, x with
      | .and, .bool false => pure ([.bool false], st)
      | .and, .bool true => eval b st
      | .or, .bool true => pure ([.bool true], st)
      | .or, .bool false => eval b st
      | o, x => do
          let (y, st) ← eval b st
          let y ← one y
          let v ← .some! (binVal X.bits o x y)
          pure ([v], st)
  | .lit (.name t) es, st => do
      let (es, st) ← evalElems es st
      let v ← fill P t es
      pure ([v], st)
  | .lit (.slice _) es, st => do
      let (es, st) ← evalElems es st
      pure ([.list (es.map (·.2))], st)
  | .lit _ _, _ => .stuck
  | .conv t e, st => do
      match ← eval e st with
      | ([.str b], st) =>
          if t = .slice (.name "byte") then let (v, h) := newBytes st.heap b; pure ([v], { st with heap := h }) else .stuck
      | _ => .stuck
  | .func ps rs body, st => .ok ([.func ps rs body st.env], st)
def evals : Exprs → State → Res (List Val × State)
  | .nil, st => .ok ([], st)
  | .cons e es, st => do
      let (a, st) ← eval e st
      let (b, st) ← evals es st
      pure (a ++ b, st)
def evalElems : Elems → State → Res (List (String × Val) × State)
  | .nil, st => .ok ([], st)
  | .cons k e es, st => do
      let (a, st) ← eval e st
      let a ← one a
      let (b, st) ← evalElems es st
      pure ((k, a) :: b, st)
end

/-- "Assignments" to a variable, a field, an element, or what a pointer points to. -/
def store (l : Expr) (v : Val) (st : State) : Res State :=
  match l with
  | .id x => do
      let old ← .some! (get x st.env)
      let env ← .some! (set x (coerce old v) st.env)
      pure { st with env := env }
  | .sel e f => do
      let (p, st) ← eval P X call e st
      let p ← one p
      let h ← setField st.heap p f v
      pure { st with heap := h }
  | .index e i => do
      let (p, st) ← eval P X call e st
      let p ← one p
      let (w, st) ← eval P X call i st
      match w with
      | [.int _ n] => do let h ← setIndex st.heap p n v; pure { st with heap := h }
      | _ => .stuck
  | .un .deref e => do
      let (p, st) ← eval P X call e st
      let p ← one p
      let h ← setDeref st.heap p v
      pure { st with heap := h }
  | _ => .stuck

mutual
def exec : Stmt → State → Res (Sig × State)
  | .expr e, st => do let (_, st) ← eval P X call e st; pure (.next, st)
  | .assign (.cons l .nil) e, st => do
      let (vs, st) ← evals P X call e st
      let v ← one vs
      let st ← store P X call l v st
      pure (.next, st)
  | .assign _ _, _ => .stuck
  | .define xs e, st => do
      let (vs, st) ← evals P X call e st
      if xs.length = vs.length then pure (.next, { st with env := xs.zip (vs.map coerceDefault) ++ st.env }) else .stuck
  | .add l e, st => do
      let (vs, st) ← eval P X call (.bin .add l e) st
      let v ← one vs
      let st ← store P X call l v st
      pure (.next, st)
  | .inc l, st => do
      let (vs, st) ← eval P X call (.bin .add l (.num 1)) st
      let v ← one vs
      let st ← store P X call l v st
      pure (.next, st)
  | .dec l, st => do
      let (vs, st) ← eval P X call (.bin .sub l (.num 1)) st
      let v ← one vs
      let st ← store P X call l v st
      pure (.next, st)
  | .var x t, st => .ok (.next, { st with env := (x, zero P 3 t) :: st.env })
  | .ret es, st => do let (vs, st) ← evals P X call es st; pure (.ret vs, st)
  | .if_ init c a b, st => inScope st.env.length do
      match ← execs init st with
      | (.next, st) =>
          match ← eval P X call c st with
          | ([.bool true], st) => inScope st.env.length (jumps (entry a) fuel (execs a st))
          | ([.bool false], st) => inScope st.env.length (jumps (entry b) fuel (execs b st))
          | _ => .stuck
      | _ => .stuck
  | .switch e cs, st => do
      let (v, st) ← eval P X call e st
      let v ← one v
      match ← execCases cs v st with
      | (some s, st) => pure (s, st)
      | (none, st) => execDefault cs st
  | .cond cs, st => do
      match ← execCases cs (.bool true) st with
      | (some s, st) => pure (s, st)
      | (none, st) => execDefault cs st
  | .range x e body, st => do
      let (v, st) ← eval P X call e st
      match v with
      | [.list vs] =>
          rangeLoop (fun v st => inScope st.env.length
            (jumps (entry body) fuel (execs body { st with env := (x, v) :: st.env }))) vs st
      | [.nil] => .ok (.next, st)
      | _ => .stuck
  | .goto l, st => .ok (.goto l, st)
  | .label _, st => .ok (.next, st)
  | .block b, st => inScope st.env.length (jumps (entry b) fuel (execs b st))
def execs : Stmts → State → Res (Sig × State)
  | .nil, st => .ok (.next, st)
  | .cons s ss, st => do
      match ← exec s st with
      | (.next, st) => execs ss st
      | r => pure r
/-- Run the statements that follow a label. -/
def entry : Stmts → String → State → Option (Res (Sig × State))
  | .nil, _, _ => none
  | .cons (.label l') ss, l, st => if l' = l then some (execs ss st) else entry ss l st
  | .cons _ ss, l, st => entry ss l st
/-- "Switch statements": the first case with this value; `none` if there is none. -/
def execCases : Cases → Val → State → Res (Option Sig × State)
  | .nil, _, st => .ok (none, st)
  | .default _ cs, v, st => execCases cs v st
  | .case e body cs, v, st => do
      let (w, st) ← eval P X call e st
      let w ← one w
      match ← .some! (eqVal v w) with
      | true => do let r ← inScope st.env.length (jumps (entry body) fuel (execs body st)); pure (some r.1, r.2)
      | false => execCases cs v st
def execDefault : Cases → State → Res (Sig × State)
  | .nil, st => .ok (.next, st)
  | .case _ _ cs, st => execDefault cs st
  | .default body _, st => inScope st.env.length (jumps (entry body) fuel (execs body st))
end
end

/-- Run the body of a function, with a bound on the depth of calls and on the jumps in a block.  Constants and `nil` get the
types of the results. -/
def callN (P : Prog) (X : Ext) : Nat → Call
  | 0, _, _, _, _ => .more
  | n + 1, rs, env, body, h =>
      match jumps (entry P X (callN P X n) n body) n (execs P X (callN P X n) n body ⟨env, h⟩) with
      | .ok (.ret vs, st) =>
          if rs.length = vs.length then .ok ((rs.zip vs).map fun (t, v) => coerce (zero P 3 t) v, st.heap) else .stuck
      | .ok (.next, st) => if rs = [] then .ok ([], st.heap) else .stuck
      | .ok (.goto _, _) => .stuck
      | .panic p => .panic p
      | .stuck => .stuck
      | .more => .more

/-- Call a function of the program. -/
def runFn (P : Prog) (X : Ext) (n : Nat) (f : String) (vs : List Val) (spread : Bool) (h : Heap) : Res (List Val × Heap) := do
  let g ← .some! (findFn P none f)
  callFn P (callN P X n) g none vs spread h

/-- Call a method. -/
def runMethod (P : Prog) (X : Ext) (n : Nat) (v : Val) (f : String) (vs : List Val) (h : Heap) : Res (List Val × Heap) := do
  let (g, w, h) ← method P h v f
  callFn P (callN P X n) g (some w) vs false h

/-! ## Programs -/

/-- The values of the constants and variables of the package. -/
def constVal (cs : List (String × Val)) (t : Option Ty) (e : Expr) : Option Val :=
  match e, t with
  | .num n, some (.name t) => some (.int t n)
  | .num n, none => some (.int "" n)
  | .str b, _ => some (.str (bytesOf b))
  | .id x, _ => get x cs
  | .lit _ es, _ => some (.list (nums es))
  | _, _ => none
where nums : Elems → List Val
  | .cons _ (.num n) es => .int "byte" n :: nums es
  | _ => []

def addDecl (P : Prog) : Decl → Option Prog
  | .type x d => some { P with types := P.types ++ [(x, d)] }
  | .val x t e => (constVal P.consts t e).map fun v => { P with consts := P.consts ++ [(x, v)] }
  | .iota x (.name t) n => some { P with consts := P.consts ++ [(x, .int t n)] }
  | .iota _ _ _ => none
  | .func r f ps rs b => some { P with funcs := P.funcs ++ [⟨r, f, ps, rs, b⟩] }

def addDecls (P : Prog) (ds : List Decl) : Option Prog := ds.foldlM addDecl P

end Urn.GoLang
