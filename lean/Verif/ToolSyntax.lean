import Verif.GoSyntax
/-!
# The syntax of the Go that the tools are written in

A parser for the text of `/repo/tools` (`ToolSource.lean`).  The tokens are those of `GoSyntax.lean`, but the tools also use
raw strings and the escape sequence `\n`, and other statements and expressions than the package.  Types are read and dropped:
that a program has the right types is checked by the Go compiler.
-/
set_option autoImplicit false
namespace Urn.ToolLang
open GoLang (Tok Op Kw P BinOp isLetter isDigit isWord spanC word numOf lexOp semi codes ofCodes binOp op ident skip)

/-! ## Tokens -/

/-- The rest of an interpreted string literal, with the escape sequences `\"` and `\n`. -/
def lexStr : List Nat → Option (List Nat × List Nat)
  | [] => none
  | c :: cs =>
      match Nat.beq c 34, Nat.beq c 92 with
      | true, _ => some ([], cs)
      | false, false => match lexStr cs with | some (a, b) => some (c :: a, b) | none => none
      | false, true =>
          match cs with
          | [] => none
          | d :: cs =>
              match Nat.beq d 34, Nat.beq d 110, lexStr cs with
              | true, _, some (a, b) => some (34 :: a, b)
              | _, true, some (a, b) => some (10 :: a, b)
              | _, _, _ => none

/-- The rest of a raw string literal (it ends on the same line). -/
def lexRaw : List Nat → Option (List Nat × List Nat)
  | [] => none
  | c :: cs =>
      match Nat.beq c 96 with
      | true => some ([], cs)
      | false => match lexRaw cs with | some (a, b) => some (c :: a, b) | none => none

/-- The tokens of one line (no token of the files spans lines; `//` begins a comment). -/
def lexLine : Nat → List Nat → Option (List Tok)
  | 0, _ => none
  | _, [] => some []
  | n + 1, c :: cs =>
      match Nat.beq c 32 || Nat.beq c 9, isLetter c, isDigit c, Nat.beq c 34, Nat.beq c 96 with
      | true, _, _, _, _ => lexLine n cs
      | _, true, _, _, _ =>
          match spanC isWord (c :: cs) with
          | (a, b) => match lexLine n b with | some ts => some (word a :: ts) | none => none
      | _, _, true, _, _ =>
          match spanC isDigit (c :: cs) with
          | (a, b) => match lexLine n b with | some ts => some (.num (numOf 0 a) :: ts) | none => none
      | _, _, _, true, _ =>
          match lexStr cs with
          | some (a, b) => match lexLine n b with | some ts => some (.str a :: ts) | none => none
          | none => none
      | _, _, _, _, true =>
          match lexRaw cs with
          | some (a, b) => match lexLine n b with | some ts => some (.str a :: ts) | none => none
          | none => none
      | _, _, _, _, _ =>
          match cs with
          | [] => match lexOp c 0 with | some (o, false) => some [.op o] | _ => none
          | d :: ds =>
              match Nat.beq c 47 && Nat.beq d 47 with
              | true => some []
              | false =>
                  match lexOp c d with
                  | some (o, true) => match lexLine n ds with | some ts => some (.op o :: ts) | none => none
                  | some (o, false) => match lexLine n cs with | some ts => some (.op o :: ts) | none => none
                  | none => none

/-- The tokens of the lines of a file. -/
def lexCodes : List (List Nat) → Option (List Tok)
  | [] => some []
  | l :: ls =>
      match lexLine (l.length + 1) l with
      | some a => match lexCodes ls with | some b => some (semi a b) | none => none
      | none => none

/-! ## Syntax trees -/

mutual
inductive Expr where
  | id (x : String)
  | num (n : Nat)
  | str (b : List Nat)
  /-- `-e` -/
  | neg (e : Expr)
  | sel (e : Expr) (f : String)
  | index (e i : Expr)
  /-- `e[lo:hi]` -/
  | slice (e lo hi : Expr)
  /-- `e[lo:]` -/
  | from (e lo : Expr)
  | call (f : Expr) (args : Exprs)
  | bin (op : BinOp) (a b : Expr)
  /-- `[]byte(e)` -/
  | bytes (e : Expr)
  /-- `[]string{}` -/
  | empty
  | func (params : List String) (body : Stmts)
  deriving Repr
inductive Exprs where
  | nil
  | cons (e : Expr) (es : Exprs)
  deriving Repr
inductive Stmt where
  | expr (e : Expr)
  /-- `x, … := e, …` -/
  | define (xs : List String) (e : Exprs)
  /-- `x, … = e, …` -/
  | assign (xs : List String) (e : Exprs)
  /-- `x += e` -/
  | add (x : String) (e : Expr)
  | ret (es : Exprs)
  /-- `if init; c {…} else {…}` -/
  | if_ (init : Stmts) (c : Expr) (a b : Stmts)
  /-- `for init; c; post {…}` -/
  | for_ (init : Stmts) (c : Expr) (post body : Stmts)
  /-- `for _, x := range e {…}` -/
  | range (x : String) (e : Expr) (body : Stmts)
  deriving Repr
inductive Stmts where
  | nil
  | cons (s : Stmt) (ss : Stmts)
  deriving Repr
end

instance : Inhabited Expr := ⟨.num 0⟩
instance : Inhabited Stmts := ⟨.nil⟩

def Exprs.ofList : List Expr → Exprs
  | [] => .nil
  | e :: es => .cons e (ofList es)
def Stmts.ofList : List Stmt → Stmts
  | [] => .nil
  | s :: ss => .cons s (ofList ss)

/-! ## The parser -/

/-- Types: `T`, `pkg.T`, `*T`, `[]T`, and `func(…)` with the type of its result. -/
def ty : Nat → List Tok → Option (List Tok)
  | 0, _ => none
  | n + 1, ts =>
      match ts with
      | .op .star :: ts => ty n ts
      | .op .lbrk :: .op .rbrk :: ts => ty n ts
      | .kw .func :: .op .lpar :: ts => do let ts ← skip 0 ts; ty n ts
      | .id _ :: .op .dot :: .id _ :: ts => some ts
      | .id _ :: ts => some ts
      | _ => none

/-- `(a T, b U)`, after the `(`. -/
def params : Nat → P (List String)
  | 0, _ => none
  | n + 1, ts =>
      match ts with
      | .op .rpar :: ts => some ([], ts)
      | .op .comma :: ts => params n ts
      | .id x :: ts => do
          let ts ← ty n ts
          let (ps, ts) ← params n ts
          pure (x :: ps, ts)
      | _ => none

/-- The result types of a function, before its body. -/
def results (n : Nat) (ts : List Tok) : Option (List Tok) :=
  match ts with
  | .op .lbrc :: _ => some ts
  | .op .lpar :: ts => skip 0 ts
  | _ => ty n ts

mutual
/-- Expressions with operators that bind at least as strongly as `p`. -/
def expr (p : Nat) : Nat → P Expr
  | 0, _ => none
  | n + 1, ts =>
      match unary n ts with
      | some (e, ts) => binary p n e ts
      | none => none
def binary (p : Nat) : Nat → Expr → P Expr
  | 0, _, _ => none
  | n + 1, e, ts =>
      match ts with
      | .op o :: ts' =>
          match binOp o with
          | some (o, q) =>
              match Nat.ble p q with
              | true =>
                  match expr (q + 1) n ts' with
                  | some (f, ts) => binary p n (.bin o e f) ts
                  | none => none
              | false => some (e, ts)
          | none => some (e, ts)
      | _ => some (e, ts)
def unary : Nat → P Expr
  | 0, _ => none
  | n + 1, ts =>
      match ts with
      | .op .sub :: ts => (unary n ts).map fun (e, r) => (.neg e, r)
      | _ => (operand n ts).bind fun (e, r) => suffixes n e r
def operand : Nat → P Expr
  | 0, _ => none
  | n + 1, ts =>
      match ts with
      | .num k :: ts => some (.num k, ts)
      | .str b :: ts => some (.str b, ts)
      | .op .lbrk :: .op .rbrk :: .id t :: .op .lbrc :: .op .rbrc :: ts => if t = "string" then some (.empty, ts) else none
      | .op .lbrk :: .op .rbrk :: .id t :: .op .lpar :: ts => do
          let (e, ts) ← expr 1 n ts
          let ts ← op .rpar ts
          if t = "byte" then pure (.bytes e, ts) else none
      | .kw .func :: .op .lpar :: ts => do
          let (ps, ts) ← params n ts
          let ts ← results n ts
          let ts ← op .lbrc ts
          let (b, ts) ← stmts n [] ts
          pure (.func ps b, ts)
      | .id x :: ts => some (.id x, ts)
      | _ => none
def suffixes : Nat → Expr → P Expr
  | 0, _, _ => none
  | n + 1, e, ts =>
      match ts with
      | .op .dot :: .id f :: ts => suffixes n (.sel e f) ts
      | .op .lbrk :: ts => do
          let (i, ts) ← expr 1 n ts
          match ts with
          | .op .rbrk :: ts => suffixes n (.index e i) ts
          | .op .colon :: .op .rbrk :: ts => suffixes n (.from e i) ts
          | .op .colon :: ts => do
              let (j, ts) ← expr 1 n ts
              let ts ← op .rbrk ts
              suffixes n (.slice e i j) ts
          | _ => none
      | .op .lpar :: ts => do
          let (as, ts) ← args n ts
          suffixes n (.call e (.ofList as)) ts
      | _ => some (e, ts)
/-- Arguments, after the `(`. -/
def args : Nat → P (List Expr)
  | 0, _ => none
  | n + 1, ts =>
      match ts with
      | .op .rpar :: ts => some ([], ts)
      | .op .comma :: ts => args n ts
      | _ => do
          let (e, ts) ← expr 1 n ts
          let (es, ts) ← args n ts
          pure (e :: es, ts)
/-- Expressions with commas between them. -/
def exprs : Nat → P (List Expr)
  | 0, _ => none
  | n + 1, ts => do
      let (e, ts) ← expr 1 n ts
      match ts with
      | .op .comma :: ts => do
          let (es, ts) ← exprs n ts
          pure (e :: es, ts)
      | _ => pure ([e], ts)
/-- Statements up to the `}`, which is read; the ones before them in reverse order in `acc`. -/
def stmts : Nat → List Stmt → P Stmts
  | 0, _, _ => none
  | n + 1, acc, ts =>
      match ts with
      | .op .rbrc :: ts => some (.ofList acc.reverse, ts)
      | .op .semi :: ts => stmts n acc ts
      | _ =>
          match stmt n ts with
          | some (s, ts) => stmts n (s :: acc) ts
          | none => none
def stmt : Nat → P Stmt
  | 0, _ => none
  | n + 1, ts =>
      match ts with
      | .kw .ret :: ts => do let (es, ts) ← exprs n ts; pure (.ret (.ofList es), ts)
      | .kw .if_ :: ts => do
          let (s, ts) ← simple n ts
          match ts with
          | .op .semi :: ts => do
              let (c, ts) ← expr 1 n ts
              let ((a, b), ts) ← thenElse n ts
              pure (.if_ (.cons s .nil) c a b, ts)
          | _ =>
              match s with
              | .expr c => do
                  let ((a, b), ts) ← thenElse n ts
                  pure (.if_ .nil c a b, ts)
              | _ => none
      | .kw .for_ :: .kw .blank :: .op .comma :: .id x :: .op .define :: .kw .range :: ts => do
          let (e, ts) ← expr 1 n ts
          let ts ← op .lbrc ts
          let (b, ts) ← stmts n [] ts
          pure (.range x e b, ts)
      | .kw .for_ :: ts => do
          let (s, ts) ← simple n ts
          match ts with
          | .op .semi :: ts => do
              let (c, ts) ← expr 1 n ts
              let ts ← op .semi ts
              let (p, ts) ← simple n ts
              let ts ← op .lbrc ts
              let (b, ts) ← stmts n [] ts
              pure (.for_ (.cons s .nil) c (.cons p .nil) b, ts)
          | .op .lbrc :: ts =>
              match s with
              | .expr c => do
                  let (b, ts) ← stmts n [] ts
                  pure (.for_ .nil c .nil b, ts)
              | _ => none
          | _ => none
      | _ => simple n ts
def thenElse : Nat → P (Stmts × Stmts)
  | 0, _ => none
  | n + 1, ts => do
      let ts ← op .lbrc ts
      let (a, ts) ← stmts n [] ts
      match ts with
      | .kw .else_ :: .op .lbrc :: ts => do let (b, ts) ← stmts n [] ts; pure ((a, b), ts)
      | _ => pure ((a, .nil), ts)
/-- Assignments, `:=`, `+=` and calls. -/
def simple : Nat → P Stmt
  | 0, _ => none
  | n + 1, ts => do
      let (es, ts) ← exprs n ts
      match ts, es with
      | .op .set :: ts, es => do
          let (rs, ts) ← exprs n ts
          let xs ← es.mapM fun e => match e with | .id x => some x | _ => none
          pure (.assign xs (.ofList rs), ts)
      | .op .define :: ts, es => do
          let (rs, ts) ← exprs n ts
          let xs ← es.mapM fun e => match e with | .id x => some x | _ => none
          pure (.define xs (.ofList rs), ts)
      | .op .addSet :: ts, [.id x] => do let (r, ts) ← expr 1 n ts; pure (.add x r, ts)
      | ts, [e] => some (.expr e, ts)
      | _, _ => none
end

/-! ## Declarations -/

inductive Decl where
  /-- a variable of the package -/
  | var (name : String) (e : Expr)
  | func (name : String) (params : List String) (body : Stmts)
  deriving Repr

/-- The declarations of a file. -/
def decls : Nat → P (List Decl)
  | 0, _ => none
  | n + 1, ts =>
      match ts with
      | [] => some ([], [])
      | .op .semi :: ts => decls n ts
      | .kw .package :: .id _ :: ts => decls n ts
      | .kw .import :: .op .lpar :: ts => do let ts ← skip 0 ts; decls n ts
      | .kw .var :: .id x :: .op .set :: ts => do
          let (e, ts) ← expr 1 n ts
          let (r, ts) ← decls n ts
          pure (.var x e :: r, ts)
      | .kw .func :: .id f :: .op .lpar :: ts => do
          let (ps, ts) ← params n ts
          let ts ← results n ts
          let ts ← op .lbrc ts
          let (b, ts) ← stmts n [] ts
          let (r, ts) ← decls n ts
          pure (.func f ps b :: r, ts)
      | _ => none

/-- The declarations of a source file, given by its lines. -/
def parseCodes (lines : List (List Nat)) : Option (List Decl) :=
  match lexCodes lines with
  | none => none
  | some ts => match decls (2 * ts.length) ts with
      | some (ds, []) => some ds
      | _ => none

def parseFile (lines : List String) : Option (List Decl) := parseCodes (lines.map codes)

end Urn.ToolLang
