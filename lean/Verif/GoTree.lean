import Verif.GoSem
/-!
# Programs that access memory step by step

The interpreter of `GoSem.lean` has the memory to itself from the start of a call to its end.  When several goroutines run, others
can access memory between any two accesses of one of them.  `Io` is a computation that shows its accesses: what it does next, and
how it goes on from there.  `evalT`, `execT`, `callT`, ... are the functions `eval`, `exec`, `callN`, ... of `GoSem.lean`, line by line,
but without a memory.  `GoTreeRun.lean` shows that they do the same when nobody else accesses memory.

An access is to a whole struct, to a field of a struct, or to some bytes of an array.
-/
set_option autoImplicit false
namespace Urn.GoLang

/-- What is accessed at an address: a struct, a field of a struct, or `n` bytes of an array from index `i` on. -/
inductive Part where
  | all
  | field (f : String)
  | bytes (i n : Nat)
deriving DecidableEq, Repr

/-- What is written: a struct, a field of a struct, or a byte of an array. -/
inductive Upd where
  | all (v : Val)
  | field (f : String) (v : Val)
  | byte (i : Nat) (x : UInt8)

def Upd.part : Upd → Part
  | .all _ => .all
  | .field f _ => .field f
  | .byte i _ => .bytes i 1

/-- What a program reads, if it may. -/
def Cell.see : Cell → Part → Option Cell
  | .obj v, .all => some (.obj v)
  | .obj (.struct _ fs), .field f => (get f fs).map .obj
  | c, .bytes i n => (c.cut i n).map .arr
  | _, _ => Option.none

/-- What there is after a program wrote, if it may. -/
def Cell.fix : Cell → Upd → Option Cell
  | .obj _, .all v => some (.obj v)
  | .obj (.struct t fs), .field f v =>
      match get f fs with
      | some old => (set f (coerce old v) fs).map fun fs => .obj (.struct t fs)
      | Option.none => Option.none
  | c, .byte i x => c.poke i x
  | _, _ => Option.none

/-- A computation: it is done, or it accesses memory. -/
inductive Io (α : Type) where
  | done (r : Res α)
  | read (a : Nat) (p : Part) (k : Cell → Io α)
  | write (a : Nat) (u : Upd) (k : Io α)
  /-- new memory; `k` gets its address -/
  | alloc (c : Cell) (k : Nat → Io α)

namespace Io
def bind {α β : Type} : Io α → (α → Io β) → Io β
  | done (.ok a), f => f a
  | done (.panic p), _ => done (.panic p)
  | done .stuck, _ => done .stuck
  | done .more, _ => done .more
  | read a p k, f => read a p fun c => bind (k c) f
  | write a u k, f => write a u (bind k f)
  | alloc c k, f => alloc c fun a => bind (k a) f
instance : Monad Io where
  pure a := done (.ok a)
  bind := bind

end Io

/-- What a program reads at an address, if it may. -/
def Heap.at (h : Heap) (a : Nat) (p : Part) : Option Cell :=
  match h[a]? with
  | some c => c.see p
  | none => none

/-- What there is at an address after a program wrote to it, if it may. -/
def Heap.own (h : Heap) (a : Nat) (u : Upd) : Option Cell :=
  match h[a]? with
  | some c => c.fix u
  | none => none

/-- Run it when nobody else accesses memory. -/
def Io.run {α : Type} : Io α → Heap → Res (α × Heap)
  | done (.ok a), h => .ok (a, h)
  | done (.panic p), _ => .panic p
  | done .stuck, _ => .stuck
  | done .more, _ => .more
  | read a p k, h => match h.at a p with | some c => run (k c) h | none => .stuck
  | write a u k, h => match h.own a u with | some c => run k (h.set a c) | none => .stuck
  | alloc c k, h => run (k h.length) (h ++ [c])

/-! ## Memory -/

def loadObjT (a : Nat) : Io Val := .read a .all fun
  | .obj v => .done (.ok v)
  | _ => .done .stuck

def loadFieldT (a : Nat) (f : String) : Io Val := .read a (.field f) fun
  | .obj v => .done (.ok v)
  | _ => .done .stuck

def loadBytesT (a i n : Nat) : Io Bytes := .read a (.bytes i n) fun
  | .arr b => .done (.ok b)
  | _ => .done .stuck

def storeT (a : Nat) (u : Upd) : Io Unit := .write a u (.done (.ok ()))

def newT (c : Cell) : Io Nat := .alloc c fun a => .done (.ok a)

/-- as `field` -/
def fieldT (v : Val) (f : String) : Io Val :=
  match v with
  | .struct _ fs => .done (.some! (get f fs))
  | .ptr _ none => .done (.panic .nilDeref)
  | .ptr _ (some a) => loadFieldT a f
  | _ => .done .stuck

/-- as `indexVal` -/
def indexValT (v : Val) (i : Int) : Io Val :=
  match v with
  | .bytes a off len _ =>
      if 0 ≤ i ∧ i < len then do
        match ← loadBytesT a (off + i.toNat) 1 with
        | [c] => .done (.ok (.int "byte" c.toNat))
        | _ => .done .stuck
      else .done (.panic .index)
  | v => .done (indexVal [] v i)

/-- as `toStr` -/
def toStrT (v : Val) : Io Val :=
  match v with
  | .bytes a off len _ => do let b ← loadBytesT a off len; pure (.str b)
  | v => .done (toStr [] v)

/-- as `newBytes` -/
def newBytesT (b : Bytes) : Io Val := do
  let a ← newT (.arr b)
  pure (.bytes a 0 b.length b.length)

/-- as `setField` -/
def setFieldT (v : Val) (f : String) (w : Val) : Io Unit :=
  match v with
  | .ptr _ none => .done (.panic .nilDeref)
  | .ptr _ (some a) => storeT a (.field f w)
  | _ => .done .stuck

/-- as `setIndex` -/
def setIndexT (v : Val) (i : Int) (w : Val) : Io Unit :=
  match v, w with
  | .bytes a off len _, .int _ n =>
      if 0 ≤ i ∧ i < len then storeT a (.byte (off + i.toNat) (UInt8.ofNat n.toNat)) else .done (.panic .index)
  | .nil, _ => .done (.panic .index)
  | _, _ => .done .stuck

/-- as `setDeref` -/
def setDerefT (v : Val) (w : Val) : Io Unit :=
  match v with
  | .ptr _ none => .done (.panic .nilDeref)
  | .ptr _ (some a) => do let _ ← loadObjT a; storeT a (.all w)
  | _ => .done .stuck

/-! ## Calls -/

/-- as `method` -/
def methodT (P : Prog) (v : Val) (f : String) : Io (Fn × Val) :=
  match v with
  | .int t _ => do let g ← .done (.some! (findFn P (some (.name t)) f)); pure (g, v)
  | .ptr t a =>
      match findFn P (some (.ptr (.name t))) f with
      | some g => pure (g, v)
      | none =>
          match findFn P (some (.name t)) f with
          | none => .done .stuck
          | some g =>
              match a with
              | none => .done (.panic .nilDeref)
              | some a => do let w ← loadObjT a; pure (g, w)
  | .struct t fs =>
      match findFn P (some (.name t)) f with
      | some g => pure (g, v)
      | none =>
          match findFn P (some (.ptr (.name t))) f with
          | some g => do let a ← newT (.obj v); pure (g, .ptr t (some a))
          | none =>
              match fs with
              | [(e, .ptr s a)] =>
                  if e = s then
                    match findFn P (some (.ptr (.name s))) f with
                    | some g => pure (g, .ptr s a)
                    | none => .done .stuck
                  else .done .stuck
              | _ => .done .stuck
  | _ => .done .stuck

/-- as `extCall` -/
def extCallT (X : Ext) (p f : String) (vs : List Val) : Io (List Val) :=
  if p = "fmt" ∧ f = "Errorf" then
    match vs with
    | .str t :: vs => do let b ← .done (.some! (sprintf t vs)); pure [.err b]
    | _ => .done .stuck
  else if p = "fmt" ∧ f = "Sprintf" then
    match vs with
    | .str t :: vs => do let b ← .done (.some! (sprintf t vs)); pure [.str b]
    | _ => .done .stuck
  else if p = "strings" ∧ f = "ToLower" then
    match vs with
    | [.str b] => pure [.str (toLower X.uni b)]
    | _ => .done .stuck
  else if p = "json" ∧ f = "Marshal" then
    match vs with
    | [.str b] => do let v ← newBytesT (X.json.marshal b); pure [v, .nil]
    | _ => .done .stuck
  else .done .stuck

/-! ## Expressions and statements -/

abbrev CallT := List Ty → Env → Stmts → Io (List Val)

/-- as `inScope` -/
def inScopeT (n : Nat) (r : Io (Sig × Env)) : Io (Sig × Env) := do
  let (s, env) ← r
  pure (s, env.drop (env.length - n))

/-- as `jumps` -/
def jumpsT (entry : String → Env → Option (Io (Sig × Env))) : Nat → Io (Sig × Env) → Io (Sig × Env)
  | n, r => do
      match ← r with
      | (.goto l, env) =>
          match entry l env with
          | none => pure (.goto l, env)
          | some r => match n with | 0 => .done .more | n + 1 => jumpsT entry n r
      | r => pure r

/-- as `rangeLoop` -/
def rangeLoopT (f : Val → Env → Io (Sig × Env)) : List Val → Env → Io (Sig × Env)
  | [], env => pure (.next, env)
  | v :: vs, env => do
      match ← f v env with
      | (.next, env) => rangeLoopT f vs env
      | r => pure r

section
variable (P : Prog) (X : Ext) (call : CallT) (fuel : Nat)

/-- as `callFn` -/
def callFnT (g : Fn) (recv : Option Val) (vs : List Val) (spread : Bool) : Io (List Val) := do
  let env ← .done (.some! (bindParams P spread g.params vs))
  let env ← match g.recv, recv with
    | some p, some v => pure ((p.name, v) :: env)
    | none, none => pure env
    | _, _ => .done .stuck
  call g.results env g.body

/-- as `callName` -/
def callNameT (f : String) (vs : List Val) (spread : Bool) (env : Env) : Io (List Val × Env) :=
  match get f env with
  | some (.func ps rs body cenv) => do
      let e ← .done (.some! (bindParams P spread ps vs))
      let r ← call rs (e ++ cenv) body
      pure (r, env)
  | some .nil => .done (.panic .nilDeref)
  | some _ => .done .stuck
  | none =>
      if f = "len" then
        match vs with
        | [.bytes _ _ n _] => pure ([.int "int" n], env)
        | [.nil] => pure ([.int "int" 0], env)
        | _ => .done .stuck
      else if f = "append" then
        match vs with
        | [.list l, v] => pure ([.list (l ++ [v])], env)
        | [.nil, v] => pure ([.list [v]], env)
        | _ => .done .stuck
      else if f = "string" then
        match vs with
        | [v] => do let s ← toStrT v; pure ([s], env)
        | _ => .done .stuck
      else do
        let g ← .done (.some! (findFn P none f))
        let r ← callFnT P call g none vs spread
        pure (r, env)

mutual
/-- as `eval` -/
def evalT : Expr → Env → Io (List Val × Env)
  | .id x, env => do let v ← .done (.some! (lookup P env x)); pure ([v], env)
  | .num n, env => pure ([.int "" n], env)
  | .str b, env => pure ([.str (bytesOf b)], env)
  | .sel e f, env => do
      let (v, env) ← evalT e env
      let v ← .done (one v)
      let v ← fieldT v f
      pure ([v], env)
  | .index e i, env => do
      let (v, env) ← evalT e env
      let v ← .done (one v)
      let (w, env) ← evalT i env
      match w with
      | [.int _ n] => do let v ← indexValT v n; pure ([v], env)
      | _ => .done .stuck
  | .slice e i j, env => do
      let (v, env) ← evalT e env
      let v ← .done (one v)
      let (w, env) ← evalT i env
      let (z, env) ← evalT j env
      match w, z with
      | [.int _ i], [.int _ j] => do let v ← .done (sliceVal v i j); pure ([v], env)
      | _, _ => .done .stuck
  | .call (.id f) args spread, env => do
      let (vs, env) ← evalsT args env
      callNameT P call f vs spread env
  | .call (.sel e f) args spread, env =>
      match e with
      | .id p =>
          if get p env = none ∧ isExt p then
            if p = "json" ∧ f = "Unmarshal" then
              match args with
              | .cons b (.cons (.un .addr (.id x)) .nil) => do
                  let (v, env) ← evalT b env
                  let v ← .done (one v)
                  match ← toStrT v with
                  | .str b =>
                      match X.json.unmarshal b with
                      | none => pure ([.err (X.jsonErr b)], env)
                      | some s => do let env ← .done (.some! (set x (.str s) env)); pure ([.nil], env)
                  | _ => .done .stuck
              | _ => .done .stuck
            else do
              let (vs, env) ← evalsT args env
              let r ← extCallT X p f vs
              pure (r, env)
          else if get p env = none ∧ p = "scimschema" then do
            let (vs, env) ← evalsT args env
            callNameT P call f vs spread env
          else do
            let v ← .done (.some! (lookup P env p))
            let (g, w) ← methodT P v f
            let (vs, env) ← evalsT args env
            let r ← callFnT P call g (some w) vs spread
            pure (r, env)
      | e => do
          let (v, env) ← evalT e env
          let v ← .done (one v)
          let (g, w) ← methodT P v f
          let (vs, env) ← evalsT args env
          let r ← callFnT P call g (some w) vs spread
          pure (r, env)
  | .call _ _ _, _ => .done .stuck
  | .un .not e, env => do
      match ← evalT e env with
      | ([.bool b], env) => pure ([.bool (!b)], env)
      | _ => .done .stuck
  | .un .deref e, env => do
      match ← evalT e env with
      | ([.ptr _ none], _) => .done (.panic .nilDeref)
      | ([.ptr _ (some a)], env) => do let v ← loadObjT a; pure ([v], env)
      | _ => .done .stuck
  | .un .addr e, env =>
      match e with
      | .lit (.name t) es => do
          let (es, env) ← evalElemsT es env
          let v ← .done (fill P t es)
          let a ← newT (.obj v)
          pure ([.ptr t (some a)], env)
      | _ => .done .stuck
  | .bin o a b, env => do
      let (x, env) ← evalT a env
      let x ← .done (one x)
      match o, x with
      | .and, .bool false => pure ([.bool false], env)
      | .and, .bool true => evalT b env
      | .or, .bool true => pure ([.bool true], env)
      | .or, .bool false => evalT b env
      | o, x => do
          let (y, env) ← evalT b env
          let y ← .done (one y)
          let v ← .done (.some! (binVal X.bits o x y))
          pure ([v], env)
  | .lit (.name t) es, env => do
      let (es, env) ← evalElemsT es env
      let v ← .done (fill P t es)
      pure ([v], env)
  | .lit (.slice _) es, env => do
      let (es, env) ← evalElemsT es env
      pure ([.list (es.map (·.2))], env)
  | .lit _ _, _ => .done .stuck
  | .conv t e, env => do
      match ← evalT e env with
      | ([.str b], env) =>
          if t = .slice (.name "byte") then do let v ← newBytesT b; pure ([v], env) else .done .stuck
      | _ => .done .stuck
  | .func ps rs body, env => pure ([.func ps rs body env], env)
/-- as `evals` -/
def evalsT : Exprs → Env → Io (List Val × Env)
  | .nil, env => pure ([], env)
  | .cons e es, env => do
      let (a, env) ← evalT e env
      let (b, env) ← evalsT es env
      pure (a ++ b, env)
/-- as `evalElems` -/
def evalElemsT : Elems → Env → Io (List (String × Val) × Env)
  | .nil, env => pure ([], env)
  | .cons k e es, env => do
      let (a, env) ← evalT e env
      let a ← .done (one a)
      let (b, env) ← evalElemsT es env
      pure ((k, a) :: b, env)
end

/-- as `store` -/
def assignT (l : Expr) (v : Val) (env : Env) : Io Env :=
  match l with
  | .id x => do
      let old ← .done (.some! (get x env))
      .done (.some! (set x (coerce old v) env))
  | .sel e f => do
      let (p, env) ← evalT P X call e env
      let p ← .done (one p)
      setFieldT p f v
      pure env
  | .index e i => do
      let (p, env) ← evalT P X call e env
      let p ← .done (one p)
      let (w, env) ← evalT P X call i env
      match w with
      | [.int _ n] => do setIndexT p n v; pure env
      | _ => .done .stuck
  | .un .deref e => do
      let (p, env) ← evalT P X call e env
      let p ← .done (one p)
      setDerefT p v
      pure env
  | _ => .done .stuck

mutual
/-- as `exec` -/
def execT : Stmt → Env → Io (Sig × Env)
  | .expr e, env => do let (_, env) ← evalT P X call e env; pure (.next, env)
  | .assign (.cons l .nil) e, env => do
      let (vs, env) ← evalsT P X call e env
      let v ← .done (one vs)
      let env ← assignT P X call l v env
      pure (.next, env)
  | .assign _ _, _ => .done .stuck
  | .define xs e, env => do
      let (vs, env) ← evalsT P X call e env
      if xs.length = vs.length then pure (.next, xs.zip (vs.map coerceDefault) ++ env) else .done .stuck
  | .add l e, env => do
      let (vs, env) ← evalT P X call (.bin .add l e) env
      let v ← .done (one vs)
      let env ← assignT P X call l v env
      pure (.next, env)
  | .inc l, env => do
      let (vs, env) ← evalT P X call (.bin .add l (.num 1)) env
      let v ← .done (one vs)
      let env ← assignT P X call l v env
      pure (.next, env)
  | .dec l, env => do
      let (vs, env) ← evalT P X call (.bin .sub l (.num 1)) env
      let v ← .done (one vs)
      let env ← assignT P X call l v env
      pure (.next, env)
  | .var x t, env => pure (.next, (x, zero P 3 t) :: env)
  | .ret es, env => do let (vs, env) ← evalsT P X call es env; pure (.ret vs, env)
  | .if_ init c a b, env => inScopeT env.length do
      match ← execsT init env with
      | (.next, env) =>
          match ← evalT P X call c env with
          | ([.bool true], env) => inScopeT env.length (jumpsT (entryT a) fuel (execsT a env))
          | ([.bool false], env) => inScopeT env.length (jumpsT (entryT b) fuel (execsT b env))
          | _ => .done .stuck
      | _ => .done .stuck
  | .switch e cs, env => do
      let (v, env) ← evalT P X call e env
      let v ← .done (one v)
      match ← execCasesT cs v env with
      | (some r, env) => pure (r, env)
      | (none, env) => execDefaultT cs env
  | .cond cs, env => do
      match ← execCasesT cs (.bool true) env with
      | (some r, env) => pure (r, env)
      | (none, env) => execDefaultT cs env
  | .range x e body, env => do
      let (v, env) ← evalT P X call e env
      match v with
      | [.list vs] =>
          rangeLoopT (fun v env => inScopeT env.length
            (jumpsT (entryT body) fuel (execsT body ((x, v) :: env)))) vs env
      | [.nil] => pure (.next, env)
      | _ => .done .stuck
  | .goto l, env => pure (.goto l, env)
  | .label _, env => pure (.next, env)
  | .block b, env => inScopeT env.length (jumpsT (entryT b) fuel (execsT b env))
/-- as `execs` -/
def execsT : Stmts → Env → Io (Sig × Env)
  | .nil, env => pure (.next, env)
  | .cons s ss, env => do
      match ← execT s env with
      | (.next, env) => execsT ss env
      | r => pure r
/-- as `entry` -/
def entryT : Stmts → String → Env → Option (Io (Sig × Env))
  | .nil, _, _ => none
  | .cons (.label l') ss, l, env => if l' = l then some (execsT ss env) else entryT ss l env
  | .cons _ ss, l, env => entryT ss l env
/-- as `execCases` -/
def execCasesT : Cases → Val → Env → Io (Option Sig × Env)
  | .nil, _, env => pure (none, env)
  | .default _ cs, v, env => execCasesT cs v env
  | .case e body cs, v, env => do
      let (w, env) ← evalT P X call e env
      let w ← .done (one w)
      match ← .done (.some! (eqVal v w)) with
      | true => do let (s, env) ← inScopeT env.length (jumpsT (entryT body) fuel (execsT body env)); pure (some s, env)
      | false => execCasesT cs v env
/-- as `execDefault` -/
def execDefaultT : Cases → Env → Io (Sig × Env)
  | .nil, env => pure (.next, env)
  | .case _ _ cs, env => execDefaultT cs env
  | .default body _, env => inScopeT env.length (jumpsT (entryT body) fuel (execsT body env))
end
end

/-- as `callN` -/
def callT (P : Prog) (X : Ext) : Nat → CallT
  | 0, _, _, _ => .done .more
  | n + 1, rs, env, body => do
      match ← jumpsT (entryT P X (callT P X n) n body) n (execsT P X (callT P X n) n body env) with
      | (.ret vs, _) => if rs.length = vs.length then pure ((rs.zip vs).map fun (t, v) => coerce (zero P 3 t) v) else .done .stuck
      | (.next, _) => if rs = [] then pure [] else .done .stuck
      | (.goto _, _) => .done .stuck

/-- as `runFn` -/
def runFnT (P : Prog) (X : Ext) (n : Nat) (f : String) (vs : List Val) (spread : Bool) : Io (List Val) := do
  let g ← .done (.some! (findFn P none f))
  callFnT P (callT P X n) g none vs spread

/-- as `runMethod` -/
def runMethodT (P : Prog) (X : Ext) (n : Nat) (v : Val) (f : String) (vs : List Val) : Io (List Val) := do
  let (g, w) ← methodT P v f
  callFnT P (callT P X n) g (some w) vs false

end Urn.GoLang
