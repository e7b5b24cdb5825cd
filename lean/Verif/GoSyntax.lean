/-!
# The syntax of the Go that go-urn is written in

A lexer and a parser, written in Lean, for the part of the Go language that the source files of the package use.  They are
applied to the text of the files (`GoSource.lean`).
-/
set_option autoImplicit false
namespace Urn.GoLang

/-! ## Tokens (The Go Programming Language Specification, "Lexical elements") -/

/-- The keywords of the files; `iota` and `_` are identifiers of Go. -/
inductive Kw where
  | package | import | const | var | type | struct | interface | func | ret | if_ | else_ | for_ | range | switch | case
  | default | goto | iota | blank
  deriving DecidableEq, Repr

/-- The operators and delimiters of the files. -/
inductive Op where
  /-- `(` `)` `[` `]` `{` `}` -/
  | lpar | rpar | lbrk | rbrk | lbrc | rbrc
  /-- `,` `;` `.` `:` `=` `:=` `...` -/
  | comma | semi | dot | colon | set | define | dots
  /-- `==` `!=` `<` `<=` `>` `>=` `&&` `||` -/
  | eq | ne | lt | le | gt | ge | and | or
  /-- `+` `-` `*` `&` `!` `++` `--` `+=` -/
  | add | sub | star | addr | not | inc | dec | addSet
  deriving DecidableEq, Repr

inductive Tok where
  | kw (k : Kw)
  | id (s : String)
  | num (n : Nat)
  | str (cs : List Nat)
  | op (o : Op)
  deriving DecidableEq, Repr

/-- The characters of a text, as numbers. -/
def codes (s : String) : List Nat := s.toList.map Char.toNat

/-- The text that has these characters. -/
def ofCodes (l : List Nat) : String := String.ofList (l.map Char.ofNat)

/-- Lists of characters as numbers, to compare them fast. -/
def wordCode : Nat → List Nat → Nat
  | acc, [] => acc
  | acc, c :: cs => wordCode (acc * 256 + c) cs

/-- Keywords; the numbers are the codes of the words, see the examples below. -/
def kwOf (k : Nat) : Option Kw :=
  bif Nat.beq k 31632277022795621 then some .package else  -- package
  bif Nat.beq k 115918758703732 then some .import else  -- import
  bif Nat.beq k 427071271796 then some .const else  -- const
  bif Nat.beq k 7758194 then some .var else  -- var
  bif Nat.beq k 1954115685 then some .type else  -- type
  bif Nat.beq k 126943973696372 then some .struct else  -- struct
  bif Nat.beq k 1944867225722991764325 then some .interface else  -- interface
  bif Nat.beq k 1718972003 then some .func else  -- func
  bif Nat.beq k 125780071117422 then some .ret else  -- return
  bif Nat.beq k 26982 then some .if_ else  -- if
  bif Nat.beq k 1701606245 then some .else_ else  -- else
  bif Nat.beq k 6713202 then some .for_ else  -- for
  bif Nat.beq k 491260897125 then some .range else  -- range
  bif Nat.beq k 126956707537768 then some .switch else  -- switch
  bif Nat.beq k 1667330917 then some .case else  -- case
  bif Nat.beq k 28258988067220596 then some .default else  -- default
  bif Nat.beq k 1735357551 then some .goto else  -- goto
  bif Nat.beq k 1768911969 then some .iota else  -- iota
  bif Nat.beq k 95 then some .blank else  -- _
  none

example : ["package", "import", "const", "var", "type", "struct", "interface", "func", "return", "if", "else", "for", "range", "switch", "case", "default", "goto", "iota", "_"].map (fun w => kwOf (wordCode 0 (codes w))) =
    [some .package, some .import, some .const, some .var, some .type, some .struct, some .interface, some .func, some .ret, some .if_, some .else_, some .for_, some .range, some .switch, some .case, some .default, some .goto, some .iota, some .blank] := by decide +kernel

/-- A word: a keyword or an identifier. -/
def word (a : List Nat) : Tok :=
  match kwOf (wordCode 0 a) with
  | some k => .kw k
  | none => .id (ofCodes a)


def isDigit (n : Nat) : Bool := Nat.ble 48 n && Nat.ble n 57
def isLetter (n : Nat) : Bool := (Nat.ble 97 n && Nat.ble n 122) || (Nat.ble 65 n && Nat.ble n 90) || Nat.beq n 95
def isWord (n : Nat) : Bool := isLetter n || isDigit n

/-- The longest prefix of characters that satisfy a condition, and the rest. -/
def spanC (f : Nat → Bool) : List Nat → List Nat × List Nat
  | [] => ([], [])
  | c :: cs =>
      match f c with
      | true => match spanC f cs with | (a, b) => (c :: a, b)
      | false => ([], c :: cs)

def numOf : Nat → List Nat → Nat
  | acc, [] => acc
  | acc, c :: cs => numOf (acc * 10 + (c - 48)) cs

/-- The rest of a string literal.  The only escape sequence in the files is `\"`. -/
def lexStr : List Nat → Option (List Nat × List Nat)
  | [] => none
  | c :: cs =>
      match Nat.beq c 34, Nat.beq c 92 with
      | true, _ => some ([], cs)
      | false, false => match lexStr cs with | some (a, b) => some (c :: a, b) | none => none
      | false, true =>
          match cs with
          | [] => none
          | d :: cs => match Nat.beq d 34, lexStr cs with | true, some (a, b) => some (d :: a, b) | _, _ => none

/-- An operator, given two characters (0 at the end of the line), and whether both belong to it. -/
def lexOp (c d : Nat) : Option (Op × Bool) :=
  match c with
  | 40 => some (.lpar, false)
  | 41 => some (.rpar, false)
  | 91 => some (.lbrk, false)
  | 93 => some (.rbrk, false)
  | 123 => some (.lbrc, false)
  | 125 => some (.rbrc, false)
  | 44 => some (.comma, false)
  | 59 => some (.semi, false)
  | 46 => some (.dot, false)
  | 58 => match Nat.beq d 61 with | true => some (.define, true) | false => some (.colon, false)
  | 61 => match Nat.beq d 61 with | true => some (.eq, true) | false => some (.set, false)
  | 33 => match Nat.beq d 61 with | true => some (.ne, true) | false => some (.not, false)
  | 60 => match Nat.beq d 61 with | true => some (.le, true) | false => some (.lt, false)
  | 62 => match Nat.beq d 61 with | true => some (.ge, true) | false => some (.gt, false)
  | 38 => match Nat.beq d 38 with | true => some (.and, true) | false => some (.addr, false)
  | 124 => match Nat.beq d 124 with | true => some (.or, true) | false => none
  | 43 =>
      match Nat.beq d 43, Nat.beq d 61 with
      | true, _ => some (.inc, true)
      | _, true => some (.addSet, true)
      | _, _ => some (.add, false)
  | 45 => match Nat.beq d 45 with | true => some (.dec, true) | false => some (.sub, false)
  | 42 => some (.star, false)
  | _ => none

/-- The tokens of one line (no token of the files spans lines; `//` begins a comment). -/
def lexLine : Nat → List Nat → Option (List Tok)
  | 0, _ => none
  | _, [] => some []
  | n + 1, c :: cs =>
      match Nat.beq c 32 || Nat.beq c 9, isLetter c, isDigit c, Nat.beq c 34 with
      | true, _, _, _ => lexLine n cs
      | _, true, _, _ =>
          match spanC isWord (c :: cs) with
          | (a, b) => match lexLine n b with | some ts => some (word a :: ts) | none => none
      | _, _, true, _ =>
          match spanC isDigit (c :: cs) with
          | (a, b) => match lexLine n b with | some ts => some (.num (numOf 0 a) :: ts) | none => none
      | _, _, _, true =>
          match lexStr cs with
          | some (a, b) => match lexLine n b with | some ts => some (.str a :: ts) | none => none
          | none => none
      | _, _, _, _ =>
          match cs with
          | [] => match lexOp c 0 with | some (o, false) => some [.op o] | _ => none
          | d :: ds =>
              match Nat.beq c 47 && Nat.beq d 47, Nat.beq c 46 && Nat.beq d 46 with
              | true, _ => some []
              | _, true =>
                  match ds with
                  | [] => none
                  | e :: ds =>
                      match Nat.beq e 46, lexLine n ds with
                      | true, some ts => some (.op .dots :: ts)
                      | _, _ => none
              | _, _ =>
                  match lexOp c d with
                  | some (o, true) => match lexLine n ds with | some ts => some (.op o :: ts) | none => none
                  | some (o, false) => match lexLine n cs with | some ts => some (.op o :: ts) | none => none
                  | none => none

/-- "Semicolons": a semicolon is inserted after the last token of a line if it is an identifier, a literal, `return` (other
such keywords are not in the files), `++`, `--`, `)`, `]` or `}`. -/
def semi : List Tok → List Tok → List Tok
  | [], rest => rest
  | t :: ts, rest =>
      match ts with
      | [] =>
          match t with
          | .op .inc | .op .dec | .op .rpar | .op .rbrk | .op .rbrc => t :: .op .semi :: rest
          | .op _ => t :: rest
          | .kw .ret | .kw .iota => t :: .op .semi :: rest
          | .kw _ => t :: rest
          | _ => t :: .op .semi :: rest
      | _ :: _ => t :: semi ts rest

/-- The tokens of the lines of a file. -/
def lexCodes : List (List Nat) → Option (List Tok)
  | [] => some []
  | l :: ls =>
      match lexLine (l.length + 1) l with
      | some a => match lexCodes ls with | some b => some (semi a b) | none => none
      | none => none

def lexLines (lines : List String) : Option (List Tok) := lexCodes (lines.map codes)

/-! ## Syntax trees -/

inductive Ty where
  /-- a named type; the package name of a qualified one is dropped -/
  | name (s : String)
  | ptr (t : Ty)
  | slice (t : Ty)
  deriving DecidableEq, Repr, Inhabited

inductive BinOp where
  | or | and | eq | ne | lt | le | gt | ge | add | sub
  deriving DecidableEq, Repr

inductive UnOp where
  | addr | deref | not
  deriving DecidableEq, Repr

structure Param where
  name : String
  ty : Ty
  variadic : Bool := false
  deriving DecidableEq, Repr, Inhabited

mutual
inductive Expr where
  | id (x : String)
  | num (n : Nat)
  | str (b : List Nat)
  | sel (e : Expr) (f : String)
  | index (e i : Expr)
  | slice (e lo hi : Expr)
  /-- `f(args)`, or `f(args...)` if `spread` -/
  | call (f : Expr) (args : Exprs) (spread : Bool)
  | un (op : UnOp) (e : Expr)
  | bin (op : BinOp) (a b : Expr)
  /-- composite literals; an element without a key has the key `""` -/
  | lit (t : Ty) (elems : Elems)
  /-- a conversion to a type that is not a name, `[]byte(e)` -/
  | conv (t : Ty) (e : Expr)
  | func (params : List Param) (results : List Ty) (body : Stmts)
  deriving Repr
inductive Exprs where
  | nil
  | cons (e : Expr) (es : Exprs)
  deriving Repr
inductive Elems where
  | nil
  | cons (key : String) (e : Expr) (es : Elems)
  deriving Repr
inductive Stmt where
  | expr (e : Expr)
  /-- `l, … = e, …` -/
  | assign (l : Exprs) (e : Exprs)
  /-- `x, … := e, …` -/
  | define (xs : List String) (e : Exprs)
  /-- `l += e` -/
  | add (l e : Expr)
  | inc (l : Expr)
  | dec (l : Expr)
  | var (x : String) (t : Ty)
  | ret (es : Exprs)
  /-- `if init; c {…} else {…}`; `init` has at most one statement -/
  | if_ (init : Stmts) (c : Expr) (a b : Stmts)
  /-- `switch tag {…}` -/
  | switch (tag : Expr) (cs : Cases)
  /-- `switch {…}` -/
  | cond (cs : Cases)
  /-- `for _, x := range e {…}` -/
  | range (x : String) (e : Expr) (body : Stmts)
  | goto (l : String)
  | label (l : String)
  | block (b : Stmts)
  deriving Repr
inductive Stmts where
  | nil
  | cons (s : Stmt) (ss : Stmts)
  deriving Repr
inductive Cases where
  | nil
  | case (e : Expr) (body : Stmts) (cs : Cases)
  | default (body : Stmts) (cs : Cases)
  deriving Repr
end

instance : Inhabited Expr := ⟨.num 0⟩
instance : Inhabited Stmts := ⟨.nil⟩

def Exprs.ofList : List Expr → Exprs
  | [] => .nil
  | e :: es => .cons e (ofList es)
def Elems.ofList : List (String × Expr) → Elems
  | [] => .nil
  | (k, e) :: es => .cons k e (ofList es)
def Stmts.ofList : List Stmt → Stmts
  | [] => .nil
  | s :: ss => .cons s (ofList ss)

/-! ## The parser -/

/-- A parser takes tokens and returns what it has read and the tokens that follow. -/
abbrev P (α : Type) := List Tok → Option (α × List Tok)

/-- Reads an operator. -/
def op (o : Op) : List Tok → Option (List Tok)
  | .op o' :: ts => if o' = o then some ts else none
  | _ => none

def ident : P String
  | .id x :: ts => some (x, ts)
  | _ => none

/-- The types of the files: `T`, `pkg.T`, `*T`, `[]T`. -/
def ty : Nat → P Ty
  | 0, _ => none
  | n + 1, ts =>
      match ts with
      | .op .star :: ts => (ty n ts).map fun (t, r) => (.ptr t, r)
      | .op .lbrk :: .op .rbrk :: ts => (ty n ts).map fun (t, r) => (.slice t, r)
      | .id _ :: .op .dot :: .id y :: ts => some (.name y, ts)
      | .id x :: ts => some (.name x, ts)
      | _ => none

/-- `(a T, b ...U)`, after the `(`. -/
def params : Nat → P (List Param)
  | 0, _ => none
  | n + 1, ts =>
      match ts with
      | .op .rpar :: ts => some ([], ts)
      | .op .comma :: ts => params n ts
      | .id x :: .op .dots :: ts => do
          let (t, ts) ← ty n ts
          let (ps, ts) ← params n ts
          pure (⟨x, .slice t, true⟩ :: ps, ts)
      | .id x :: ts => do
          let (t, ts) ← ty n ts
          let (ps, ts) ← params n ts
          pure (⟨x, t, false⟩ :: ps, ts)
      | _ => none

/-- `(T, U)`, after the `(`. -/
def tys : Nat → P (List Ty)
  | 0, _ => none
  | n + 1, ts =>
      match ts with
      | .op .rpar :: ts => some ([], ts)
      | .op .comma :: ts => tys n ts
      | _ => do
          let (t, ts) ← ty n ts
          let (r, ts) ← tys n ts
          pure (t :: r, ts)

/-- The result types of a function, before its body. -/
def results (n : Nat) (ts : List Tok) : Option (List Ty × List Tok) :=
  match ts with
  | .op .lbrc :: _ => some ([], ts)
  | .op .semi :: _ => some ([], ts)
  | .op .lpar :: ts => tys n ts
  | _ => (ty n ts).map fun (t, r) => ([t], r)

/-- The binary operators and how strongly they bind. -/
def binOp : Op → Option (BinOp × Nat)
  | .or => some (.or, 1)
  | .and => some (.and, 2)
  | .eq => some (.eq, 3)
  | .ne => some (.ne, 3)
  | .lt => some (.lt, 3)
  | .le => some (.le, 3)
  | .gt => some (.gt, 3)
  | .ge => some (.ge, 3)
  | .add => some (.add, 4)
  | .sub => some (.sub, 4)
  | _ => none

def unOp : Op → Option UnOp
  | .addr => some .addr
  | .star => some .deref
  | .not => some .not
  | _ => none

mutual
/-- Expressions with operators that bind at least as strongly as `p`.  Composite literals are not allowed at the top of the
header of a statement (`lit = false`), as there the brace begins the body. -/
def expr (lit : Bool) (p : Nat) : Nat → P Expr
  | 0, _ => none
  | n + 1, ts =>
      match unary lit n ts with
      | some (e, ts) => binary lit p n e ts
      | none => none
def binary (lit : Bool) (p : Nat) : Nat → Expr → P Expr
  | 0, _, _ => none
  | n + 1, e, ts =>
      match ts with
      | .op o :: ts' =>
          match binOp o with
          | some (o, q) =>
              match Nat.ble p q with
              | true =>
                  match expr lit (q + 1) n ts' with
                  | some (f, ts) => binary lit p n (.bin o e f) ts
                  | none => none
              | false => some (e, ts)
          | none => some (e, ts)
      | _ => some (e, ts)
def unary (lit : Bool) : Nat → P Expr
  | 0, _ => none
  | n + 1, ts =>
      match ts with
      | .op o :: ts' =>
          match unOp o with
          | some o => (unary lit n ts').map fun (e, r) => (.un o e, r)
          | none => (operand n ts).bind fun (e, r) => suffixes lit n e r
      | _ => (operand n ts).bind fun (e, r) => suffixes lit n e r
def operand : Nat → P Expr
  | 0, _ => none
  | n + 1, ts =>
      match ts with
      | .num k :: ts => some (.num k, ts)
      | .str b :: ts => some (.str b, ts)
      | .op .lpar :: ts => do
          let (e, ts) ← expr true 1 n ts
          let ts ← op .rpar ts
          pure (e, ts)
      | .op .lbrk :: .op .rbrk :: ts' => do
          let (t, ts) ← ty n ts'
          match ts with
          | .op .lbrc :: ts => let (es, ts) ← elems n ts; pure (.lit (.slice t) (.ofList es), ts)
          | .op .lpar :: ts => let (e, ts) ← expr true 1 n ts; let ts ← op .rpar ts; pure (.conv (.slice t) e, ts)
          | _ => none
      | .kw .func :: .op .lpar :: ts => do
          let (ps, ts) ← params n ts
          let (rs, ts) ← results n ts
          let ts ← op .lbrc ts
          let (b, ts) ← stmts n [] ts
          pure (.func ps rs b, ts)
      | .id x :: ts => some (.id x, ts)
      | _ => none
def suffixes (lit : Bool) : Nat → Expr → P Expr
  | 0, _, _ => none
  | n + 1, e, ts =>
      match ts with
      | .op .dot :: .id f :: ts => suffixes lit n (.sel e f) ts
      | .op .lbrk :: ts => do
          let (i, ts) ← expr true 1 n ts
          match ts with
          | .op .rbrk :: ts => suffixes lit n (.index e i) ts
          | .op .colon :: ts => do
              let (j, ts) ← expr true 1 n ts
              let ts ← op .rbrk ts
              suffixes lit n (.slice e i j) ts
          | _ => none
      | .op .lpar :: ts => do
          let ((as, spread), ts) ← args n ts
          suffixes lit n (.call e (.ofList as) spread) ts
      | .op .lbrc :: ts' =>
          match lit, e with
          | true, .id x => do
              let (es, ts) ← elems n ts'
              suffixes lit n (.lit (.name x) (.ofList es)) ts
          | _, _ => some (e, ts)
      | _ => some (e, ts)
/-- Arguments, after the `(`. -/
def args : Nat → P (List Expr × Bool)
  | 0, _ => none
  | n + 1, ts =>
      match ts with
      | .op .rpar :: ts => some (([], false), ts)
      | .op .comma :: ts => args n ts
      | .op .dots :: .op .rpar :: ts => some (([], true), ts)
      | _ => do
          let (e, ts) ← expr true 1 n ts
          let ((es, s), ts) ← args n ts
          pure ((e :: es, s), ts)
/-- The elements of a composite literal, after the `{`. -/
def elems : Nat → P (List (String × Expr))
  | 0, _ => none
  | n + 1, ts =>
      match ts with
      | .op .rbrc :: ts => some ([], ts)
      | .op .comma :: ts => elems n ts
      | .id k :: .op .colon :: ts => do
          let (e, ts) ← expr true 1 n ts
          let (es, ts) ← elems n ts
          pure ((k, e) :: es, ts)
      | _ => do
          let (e, ts) ← expr true 1 n ts
          let (es, ts) ← elems n ts
          pure (("", e) :: es, ts)
/-- Expressions with commas between them. -/
def exprs (lit : Bool) : Nat → P (List Expr)
  | 0, _ => none
  | n + 1, ts => do
      let (e, ts) ← expr lit 1 n ts
      match ts with
      | .op .comma :: ts => do
          let (es, ts) ← exprs lit n ts
          pure (e :: es, ts)
      | _ => pure ([e], ts)
/-- Statements up to the `}`, which is read, or up to `case` or `default`, which are not; the ones before them in reverse
order in `acc`. -/
def stmts : Nat → List Stmt → P Stmts
  | 0, _, _ => none
  | n + 1, acc, ts =>
      match ts with
      | .op .rbrc :: ts => some (.ofList acc.reverse, ts)
      | .op .semi :: ts => stmts n acc ts
      | .kw .case :: _ => some (.ofList acc.reverse, ts)
      | .kw .default :: _ => some (.ofList acc.reverse, ts)
      | _ =>
          match stmt n ts with
          | some (s, ts) => stmts n (s :: acc) ts
          | none => none
def stmt : Nat → P Stmt
  | 0, _ => none
  | n + 1, ts =>
      match ts with
      | .kw .goto :: .id l :: ts => some (.goto l, ts)
      | .id l :: .op .colon :: ts => some (.label l, ts)
      | .op .lbrc :: ts => do let (b, ts) ← stmts n [] ts; pure (.block b, ts)
      | .kw .ret :: .op .semi :: ts => some (.ret .nil, ts)
      | .kw .ret :: ts => do let (es, ts) ← exprs true n ts; pure (.ret (.ofList es), ts)
      | .kw .var :: .id x :: ts => do let (t, ts) ← ty n ts; pure (.var x t, ts)
      | .kw .if_ :: ts => do
          let (s, ts) ← simple false n ts
          match ts with
          | .op .semi :: ts => do
              let (c, ts) ← expr false 1 n ts
              let ((a, b), ts) ← thenElse n ts
              pure (.if_ (.cons s .nil) c a b, ts)
          | _ =>
              match s with
              | .expr c => do
                  let ((a, b), ts) ← thenElse n ts
                  pure (.if_ .nil c a b, ts)
              | _ => none
      | .kw .for_ :: .kw .blank :: .op .comma :: .id x :: .op .define :: .kw .range :: ts => do
          let (e, ts) ← expr false 1 n ts
          let ts ← op .lbrc ts
          let (b, ts) ← stmts n [] ts
          pure (.range x e b, ts)
      | .kw .switch :: .op .lbrc :: ts => do let (cs, ts) ← cases n ts; pure (.cond cs, ts)
      | .kw .switch :: ts => do
          let (e, ts) ← expr false 1 n ts
          let ts ← op .lbrc ts
          let (cs, ts) ← cases n ts
          pure (.switch e cs, ts)
      | _ => simple true n ts
def thenElse : Nat → P (Stmts × Stmts)
  | 0, _ => none
  | n + 1, ts => do
      let ts ← op .lbrc ts
      let (a, ts) ← stmts n [] ts
      match ts with
      | .kw .else_ :: .op .lbrc :: ts => do let (b, ts) ← stmts n [] ts; pure ((a, b), ts)
      | _ => pure ((a, .nil), ts)
def cases : Nat → P Cases
  | 0, _ => none
  | n + 1, ts =>
      match ts with
      | .op .rbrc :: ts => some (.nil, ts)
      | .op .semi :: ts => cases n ts
      | .kw .default :: .op .colon :: ts => do
          let (b, ts) ← caseBody n ts
          let (cs, ts) ← cases n ts
          pure (.default b cs, ts)
      | .kw .case :: ts => do
          let (e, ts) ← expr true 1 n ts
          let ts ← op .colon ts
          let (b, ts) ← caseBody n ts
          let (cs, ts) ← cases n ts
          pure (.case e b cs, ts)
      | _ => none
/-- Like `stmts`, but the `}` belongs to the `switch`. -/
def caseBody : Nat → P Stmts
  | 0, _ => none
  | n + 1, ts =>
      match ts with
      | .op .rbrc :: _ => some (.nil, ts)
      | .op .semi :: ts => caseBody n ts
      | .kw .case :: _ => some (.nil, ts)
      | .kw .default :: _ => some (.nil, ts)
      | _ =>
          match stmt n ts with
          | some (s, ts) => (caseBody n ts).map fun (ss, r) => (.cons s ss, r)
          | none => none
/-- Assignments, `:=`, `++`, `--` and calls. -/
def simple (lit : Bool) : Nat → P Stmt
  | 0, _ => none
  | n + 1, ts => do
      let (es, ts) ← exprs lit n ts
      match ts, es with
      | .op .set :: ts, es => do let (rs, ts) ← exprs lit n ts; pure (.assign (.ofList es) (.ofList rs), ts)
      | .op .define :: ts, es => do
          let (rs, ts) ← exprs lit n ts
          let xs ← es.mapM fun e => match e with | .id x => some x | _ => none
          pure (.define xs (.ofList rs), ts)
      | .op .addSet :: ts, [e] => do let (r, ts) ← expr lit 1 n ts; pure (.add e r, ts)
      | .op .inc :: ts, [e] => some (.inc e, ts)
      | .op .dec :: ts, [e] => some (.dec e, ts)
      | ts, [e] => some (.expr e, ts)
      | _, _ => none
end

/-! ## Declarations -/

/-- What a type name stands for. -/
inductive TyDecl where
  /-- fields; an embedded field has the name of its type -/
  | struct (fields : List Param)
  | alias (t : Ty)
  /-- interface and function types: their values say what they are -/
  | other
  deriving Repr

inductive Decl where
  | type (name : String) (d : TyDecl)
  /-- constants and variables of the package -/
  | val (name : String) (t : Option Ty) (e : Expr)
  /-- a constant of a group with `iota` -/
  | iota (name : String) (t : Ty) (n : Nat)
  | func (recv : Option Param) (name : String) (params : List Param) (results : List Ty) (body : Stmts)
  deriving Repr

/-- The fields of a struct, after the `{`. -/
def fields : Nat → P (List Param)
  | 0, _ => none
  | n + 1, ts =>
      match ts with
      | .op .rbrc :: ts => some ([], ts)
      | .op .semi :: ts => fields n ts
      | .op .star :: .id x :: ts => (fields n ts).map fun (fs, r) => (⟨x, .ptr (.name x), false⟩ :: fs, r)
      | .id a :: .op .comma :: .id b :: .op .comma :: .id c :: .op .comma :: .id d :: ts => do
          let (t, ts) ← ty n ts
          let (fs, ts) ← fields n ts
          pure (⟨a, t, false⟩ :: ⟨b, t, false⟩ :: ⟨c, t, false⟩ :: ⟨d, t, false⟩ :: fs, ts)
      | .id x :: ts => do
          let (t, ts) ← ty n ts
          let (fs, ts) ← fields n ts
          pure (⟨x, t, false⟩ :: fs, ts)
      | _ => none

/-- Skip to the end of a brace or parenthesis that is open (imports and interfaces). -/
def skip : Nat → List Tok → Option (List Tok)
  | _, [] => none
  | d, .op .lpar :: ts | d, .op .lbrc :: ts => skip (d + 1) ts
  | d, .op .rpar :: ts | d, .op .rbrc :: ts => match d with | 0 => some ts | d + 1 => skip d ts
  | d, _ :: ts => skip d ts

/-- The constants of a group with `iota`, after the first. -/
def iotas (t : Ty) : Nat → Nat → P (List Decl)
  | 0, _, _ => none
  | n + 1, k, ts =>
      match ts with
      | .op .rpar :: ts => some ([], ts)
      | .op .semi :: ts => iotas t n k ts
      | .id x :: .op .semi :: ts => (iotas t n (k + 1) ts).map fun (ds, r) => (.iota x t k :: ds, r)
      | _ => none

/-- The variables of a group. -/
def vals : Nat → P (List Decl)
  | 0, _ => none
  | n + 1, ts =>
      match ts with
      | .op .rpar :: ts => some ([], ts)
      | .op .semi :: ts => vals n ts
      | .id x :: .op .set :: ts => do
          let (e, ts) ← expr true 1 n ts
          let (ds, ts) ← vals n ts
          pure (.val x none e :: ds, ts)
      | _ => none

/-- The declarations of a file. -/
def decls : Nat → P (List Decl)
  | 0, _ => none
  | n + 1, ts =>
      match ts with
      | [] => some ([], [])
      | .op .semi :: ts => decls n ts
      | .kw .package :: .id _ :: ts => decls n ts
      | .kw .import :: .op .lpar :: ts => do let ts ← skip 0 ts; decls n ts
      | .kw .const :: .op .lpar :: .id x :: ts => do
          let (t, ts) ← ty n ts
          match ts with
          | .op .set :: .kw .iota :: ts => do
              let (ds, ts) ← iotas t n 1 ts
              let (r, ts) ← decls n ts
              pure (.iota x t 0 :: ds ++ r, ts)
          | _ => none
      | .kw .var :: .op .lpar :: ts => do
          let (ds, ts) ← vals n ts
          let (r, ts) ← decls n ts
          pure (ds ++ r, ts)
      | .kw .const :: .id x :: .op .set :: ts => do
          let (e, ts) ← expr true 1 n ts
          let (r, ts) ← decls n ts
          pure (.val x none e :: r, ts)
      | .kw .const :: .id x :: ts => do
          let (t, ts) ← ty n ts
          let ts ← op .set ts
          let (e, ts) ← expr true 1 n ts
          let (r, ts) ← decls n ts
          pure (.val x (some t) e :: r, ts)
      | .kw .var :: .id x :: ts => do
          let (t, ts) ← ty n ts
          let ts ← op .set ts
          let (e, ts) ← expr true 1 n ts
          let (r, ts) ← decls n ts
          pure (.val x (some t) e :: r, ts)
      | .kw .type :: .id x :: .kw .struct :: .op .lbrc :: ts => do
          let (fs, ts) ← fields n ts
          let (r, ts) ← decls n ts
          pure (.type x (.struct fs) :: r, ts)
      | .kw .type :: .id x :: .kw .interface :: .op .lbrc :: ts => do
          let ts ← skip 0 ts
          let (r, ts) ← decls n ts
          pure (.type x .other :: r, ts)
      | .kw .type :: .id x :: .kw .func :: .op .lpar :: ts => do
          let ts ← skip 0 ts
          let (r, ts) ← decls n ts
          pure (.type x .other :: r, ts)
      | .kw .type :: .id x :: ts => do
          let (t, ts) ← ty n ts
          let (r, ts) ← decls n ts
          pure (.type x (.alias t) :: r, ts)
      | .kw .func :: .op .lpar :: .id v :: ts => do
          let (t, ts) ← ty n ts
          let ts ← op .rpar ts
          let (f, ts) ← ident ts
          let ts ← op .lpar ts
          let (ps, ts) ← params n ts
          let (rs, ts) ← results n ts
          let ts ← op .lbrc ts
          let (b, ts) ← stmts n [] ts
          let (r, ts) ← decls n ts
          pure (.func (some ⟨v, t, false⟩) f ps rs b :: r, ts)
      | .kw .func :: .id f :: .op .lpar :: ts => do
          let (ps, ts) ← params n ts
          let (rs, ts) ← results n ts
          let ts ← op .lbrc ts
          let (b, ts) ← stmts n [] ts
          let (r, ts) ← decls n ts
          pure (.func none f ps rs b :: r, ts)
      | _ => none

/-- The declarations of a source file, given by its lines. -/
def parseCodes (lines : List (List Nat)) : Option (List Decl) :=
  match lexCodes lines with
  | none => none
  | some ts => match decls (2 * ts.length) ts with
      | some (ds, []) => some ds
      | _ => none

def parseFile (lines : List String) : Option (List Decl) := parseCodes (lines.map codes)

end Urn.GoLang
