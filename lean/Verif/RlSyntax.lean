import Verif.Grammar
import Verif.GoSyntax
/-!
# The syntax of the Ragel that machine.go.rl is written in

A lexer and a parser, written in Lean, for the part of Ragel 6 that `/repo/machine.go.rl` uses, and the expressions of
`Ragel.lean` that the definitions of such a file are.  They are applied to the text of the file (`RlSource.lean`).

The precedence of the operators is that of the Ragel guide ("Operator Precedence"), from weak to strong: `|` and `-`;
concatenation, `<:` and `:>>`; the embedding of actions; `*`, `+`, `?`, `{n}`, `{n,m}`; parentheses.
-/
set_option autoImplicit false
namespace Urn.RlLang
open GoLang (codes ofCodes isLetter isDigit isWord spanC numOf)
open Ragel (Embed Rl Ranges)
open Tables (Act)

/-! ## Specifications and host code -/

/-- The parts of a file. -/
inductive Part where
  /-- a line of the host language -/
  | go (l : List Nat)
  /-- `%% ...;` on one line: what follows the `%%` -/
  | line (l : List Nat)
  /-- the lines from `%%{` to `}%%` -/
  | block (ls : List (List Nat))
  deriving Repr

/-- Without spaces and tabs at the beginning. -/
def trim : List Nat → List Nat
  | [] => []
  | c :: cs => match Nat.beq c 32 || Nat.beq c 9 with | true => trim cs | false => c :: cs

/-- `%%{` and `}%%` -/
def opens (l : List Nat) : Bool := match trim l with | [37, 37, 123] => true | _ => false
@[inherit_doc opens] def closes (l : List Nat) : Bool := match trim l with | [125, 37, 37] => true | _ => false

/-- The parts of a file, given by its lines; `none` if a `%%{` is not closed.  `acc` has the lines of the block that is open,
in reverse order. -/
def partsFrom : Option (List (List Nat)) → List (List Nat) → Option (List Part)
  | none, [] => some []
  | some _, [] => none
  | none, l :: ls =>
      match opens l with
      | true => partsFrom (some []) ls
      | false =>
          match trim l with
          | 37 :: 37 :: r => match partsFrom none ls with | some ps => some (.line r :: ps) | none => none
          | _ => match partsFrom none ls with | some ps => some (.go l :: ps) | none => none
  | some acc, l :: ls =>
      match closes l with
      | true => match partsFrom none ls with | some ps => some (.block acc.reverse :: ps) | none => none
      | false => partsFrom (some (l :: acc)) ls

def parts (ls : List (List Nat)) : Option (List Part) := partsFrom none ls

/-! ## Tokens -/

inductive ROp where
  /-- `(` `)` `{` `}` `,` `;` `=` `:=` -/
  | lpar | rpar | lbrc | rbrc | comma | semi | set | define
  /-- `|` `-` `<:` `:>>` `*` `+` `?` -/
  | bar | minus | leftGuard | finishGuard | star | plus | opt
  /-- `>` `%` `$` `@` -/
  | enter | leave | all | finish
  deriving DecidableEq, Repr

inductive RTok where
  | word (s : String)
  | num (n : Nat)
  /-- `'text'` -/
  | lit (cs : List Nat)
  /-- `[a-z]`: ranges of characters -/
  | cls (rs : List (Nat × Nat))
  /-- `{ code }`, given by its lines -/
  | code (ls : List (List Nat))
  | op (o : ROp)
  deriving DecidableEq, Repr

/-- `\n`, `\r`, and other characters that stand for themselves after a `\`. -/
def escape (c : Nat) : Nat :=
  match c with
  | 110 => 10
  | 114 => 13
  | c => c

/-- The rest of a literal, after the `'`. -/
def lexLit : List Nat → Option (List Nat × List Nat)
  | [] => none
  | 39 :: cs => some ([], cs)
  | 92 :: c :: cs => match lexLit cs with | some (a, b) => some (escape c :: a, b) | none => none
  | c :: cs => match lexLit cs with | some (a, b) => some (c :: a, b) | none => none

/-- The rest of a set, after the `[`: characters and ranges. -/
def lexCls : Nat → List Nat → Option (List (Nat × Nat) × List Nat)
  | 0, _ => none
  | _ + 1, [] => none
  | _ + 1, 93 :: cs => some ([], cs)
  | n + 1, 92 :: c :: cs => match lexCls n cs with | some (a, b) => some ((escape c, escape c) :: a, b) | none => none
  | n + 1, c :: 45 :: d :: cs => match lexCls n cs with | some (a, b) => some ((c, d) :: a, b) | none => none
  | n + 1, c :: cs => match lexCls n cs with | some (a, b) => some ((c, c) :: a, b) | none => none

/-- Put a character before the first line. -/
def onto (c : Nat) : List (List Nat) → List (List Nat)
  | [] => [[c]]
  | l :: ls => (c :: l) :: ls

/-- The rest of a piece of code, after the `{`; `d` braces are open within it.  (There are no braces in literals or comments
of the code in the file.) -/
def lexCode : Nat → List Nat → Option (List (List Nat) × List Nat)
  | _, [] => none
  | d, 10 :: cs => match lexCode d cs with | some (a, b) => some ([] :: a, b) | none => none
  | d, 123 :: cs => match lexCode (d + 1) cs with | some (a, b) => some (onto 123 a, b) | none => none
  | 0, 125 :: cs => some ([[]], cs)
  | d + 1, 125 :: cs => match lexCode d cs with | some (a, b) => some (onto 125 a, b) | none => none
  | d, c :: cs => match lexCode d cs with | some (a, b) => some (onto c a, b) | none => none

/-- Without the rest of the line. -/
def skipLine : List Nat → List Nat
  | [] => []
  | 10 :: cs => cs
  | _ :: cs => skipLine cs

/-- An operator and the characters that follow. -/
def lexROp : List Nat → Option (ROp × List Nat)
  | 58 :: 61 :: cs => some (.define, cs)
  | 58 :: 62 :: 62 :: cs => some (.finishGuard, cs)
  | 60 :: 58 :: cs => some (.leftGuard, cs)
  | 40 :: cs => some (.lpar, cs)
  | 41 :: cs => some (.rpar, cs)
  | 125 :: cs => some (.rbrc, cs)
  | 44 :: cs => some (.comma, cs)
  | 59 :: cs => some (.semi, cs)
  | 61 :: cs => some (.set, cs)
  | 124 :: cs => some (.bar, cs)
  | 45 :: cs => some (.minus, cs)
  | 42 :: cs => some (.star, cs)
  | 43 :: cs => some (.plus, cs)
  | 63 :: cs => some (.opt, cs)
  | 62 :: cs => some (.enter, cs)
  | 37 :: cs => some (.leave, cs)
  | 36 :: cs => some (.all, cs)
  | 64 :: cs => some (.finish, cs)
  | _ => none

/-- The tokens of a block.  `code` says that a `{` begins a piece of code: after the name of an action (`action name {`), and
after `err`. -/
def lex : Nat → Nat → List Nat → Option (List RTok)
  | 0, _, _ => none
  | _ + 1, _, [] => some []
  | n + 1, code, c :: cs =>
      match c with
      | 32 => lex n code cs
      | 9 => lex n code cs
      | 10 => lex n code cs
      | 35 => lex n code (skipLine cs)
      | 39 =>
          match lexLit cs with
          | some (a, b) => match lex n 0 b with | some ts => some (.lit a :: ts) | none => none
          | none => none
      | 91 =>
          match lexCls (cs.length + 1) cs with
          | some (a, b) => match lex n 0 b with | some ts => some (.cls a :: ts) | none => none
          | none => none
      | 123 =>
          match code with
          | 1 =>
              match lexCode 0 cs with
              | some (a, b) => match lex n 0 b with | some ts => some (.code a :: ts) | none => none
              | none => none
          | _ => match lex n 0 cs with | some ts => some (.op .lbrc :: ts) | none => none
      | _ =>
          match isLetter c, isDigit c with
          | true, _ =>
              match spanC isWord (c :: cs) with
              | (a, b) =>
                  match lex n (match a with
                      | [97, 99, 116, 105, 111, 110] => 2  -- action
                      | [101, 114, 114] => 1  -- err
                      | _ => code - 1) b with
                  | some ts => some (.word (ofCodes a) :: ts)
                  | none => none
          | _, true =>
              match spanC isDigit (c :: cs) with
              | (a, b) => match lex n 0 b with | some ts => some (.num (numOf 0 a) :: ts) | none => none
          | _, _ =>
              match lexROp (c :: cs) with
              | some (o, b) => match lex n 0 b with | some ts => some (.op o :: ts) | none => none
              | none => none

/-- The characters of some lines. -/
def unlines : List (List Nat) → List Nat
  | [] => []
  | l :: ls => l ++ 10 :: unlines ls

/-! ## Syntax trees -/

/-- An action that is embedded: a name, or code. -/
inductive RAct where
  | name (s : String)
  | code (ls : List (List Nat))
  deriving DecidableEq, Repr

inductive RExp where
  | name (s : String)
  | lit (cs : List Nat)
  | cls (rs : List (Nat × Nat))
  | cat (a b : RExp)
  | leftGuarded (a b : RExp)
  | finishGuarded (a b : RExp)
  | alt (a b : RExp)
  | diff (a b : RExp)
  | star (a : RExp)
  | plus (a : RExp)
  | opt (a : RExp)
  | rep (lo hi : Nat) (a : RExp)
  | with (a : RExp) (l : List (Embed × RAct))
  deriving DecidableEq, Repr

inductive RStmt where
  /-- `machine name;` -/
  | machine (s : String)
  /-- `alphtype name;` -/
  | alphtype (s : String)
  /-- `action name { code }` -/
  | action (s : String) (ls : List (List Nat))
  /-- `name = e;` -/
  | define (s : String) (e : RExp)
  /-- `name := e;` -/
  | inst (s : String) (e : RExp)
  deriving DecidableEq, Repr

/-! ## The parser -/

abbrev P (α : Type) := List RTok → Option (α × List RTok)

/-- What `>a`, `%a` embed.  (`$a` and `@a` are not in the file.) -/
def embedOf : ROp → Option Embed
  | .enter => some .enter
  | .leave => some .leave
  | _ => none

/-- What `$err`, `%err`, `@err`, `%eof`, `%to` embed.  (Others are not in the file.) -/
def embedAt : ROp → String → Option Embed
  | .all, "err" => some .errAny
  | .leave, "err" => some .errFinal
  | .finish, "err" => some .errNotFinal
  | .leave, "eof" => some .eofFinal
  | .leave, "to" => some .toFinal
  | _, _ => none

/-- The embedded actions that follow an expression, as many as there are. -/
def augs : Nat → P (List (Embed × RAct))
  | 0, _ => none
  | n + 1, ts =>
      match ts with
      | .op o :: .word k :: .op .lpar :: .word x :: .op .rpar :: ts' =>
          match embedAt o k with
          | some e => (augs n ts').map fun (l, r) => ((e, .name x) :: l, r)
          | none =>
              match embedOf o with
              | some e => (augs n (.op .lpar :: .word x :: .op .rpar :: ts')).map fun (l, r) => ((e, .name k) :: l, r)
              | none => some ([], ts)
      | .op o :: .word k :: .code c :: ts' =>
          match embedAt o k with
          | some e => (augs n ts').map fun (l, r) => ((e, .code c) :: l, r)
          | none => none
      | .op o :: .word x :: ts' =>
          match embedOf o with
          | some e => (augs n ts').map fun (l, r) => ((e, .name x) :: l, r)
          | none => some ([], ts)
      | _ => some ([], ts)

/-- The repetitions that follow an expression. -/
def reps : Nat → RExp → P RExp
  | 0, _, _ => none
  | n + 1, e, ts =>
      match ts with
      | .op .star :: ts => reps n (.star e) ts
      | .op .plus :: ts => reps n (.plus e) ts
      | .op .opt :: ts => reps n (.opt e) ts
      | .op .lbrc :: .num a :: .op .rbrc :: ts => reps n (.rep a a e) ts
      | .op .lbrc :: .num a :: .op .comma :: .num b :: .op .rbrc :: ts => reps n (.rep a b e) ts
      | _ => some (e, ts)

/-- Whether a token can begin an operand. -/
def begins : List RTok → Bool
  | .word _ :: _ | .lit _ :: _ | .cls _ :: _ | .op .lpar :: _ => true
  | _ => false

mutual
/-- `a | b`, `a - b` -/
def expr : Nat → P RExp
  | 0, _ => none
  | n + 1, ts => (term n ts).bind fun (e, ts) => exprRest n e ts
def exprRest : Nat → RExp → P RExp
  | 0, _, _ => none
  | n + 1, e, ts =>
      match ts with
      | .op .bar :: ts => (term n ts).bind fun (f, ts) => exprRest n (.alt e f) ts
      | .op .minus :: ts => (term n ts).bind fun (f, ts) => exprRest n (.diff e f) ts
      | _ => some (e, ts)
/-- `a b`, `a <: b`, `a :>> b` -/
def term : Nat → P RExp
  | 0, _ => none
  | n + 1, ts => (factor n ts).bind fun (e, ts) => termRest n e ts
def termRest : Nat → RExp → P RExp
  | 0, _, _ => none
  | n + 1, e, ts =>
      match ts with
      | .op .leftGuard :: ts => (factor n ts).bind fun (f, ts) => termRest n (.leftGuarded e f) ts
      | .op .finishGuard :: ts => (factor n ts).bind fun (f, ts) => termRest n (.finishGuarded e f) ts
      | ts =>
          match begins ts with
          | true => (factor n ts).bind fun (f, ts) => termRest n (.cat e f) ts
          | false => some (e, ts)
/-- An operand with repetitions, then actions. -/
def factor : Nat → P RExp
  | 0, _ => none
  | n + 1, ts => do
      let (e, ts) ← operand n ts
      let (e, ts) ← reps n e ts
      let (l, ts) ← augs n ts
      match l with
      | [] => pure (e, ts)
      | l => pure (.with e l, ts)
def operand : Nat → P RExp
  | 0, _ => none
  | n + 1, ts =>
      match ts with
      | .word x :: ts => some (.name x, ts)
      | .lit cs :: ts => some (.lit cs, ts)
      | .cls rs :: ts => some (.cls rs, ts)
      | .op .lpar :: ts =>
          match expr n ts with
          | some (e, .op .rpar :: ts) => some (e, ts)
          | _ => none
      | _ => none
end

/-- The statements of a specification. -/
def stmts : Nat → List RTok → Option (List RStmt)
  | 0, _ => none
  | n + 1, ts =>
      match ts with
      | [] => some []
      | .word x :: .op .set :: ts =>
          match expr n ts with
          | some (e, .op .semi :: ts) => (stmts n ts).map (.define x e :: ·)
          | _ => none
      | .word x :: .op .define :: ts =>
          match expr n ts with
          | some (e, .op .semi :: ts) => (stmts n ts).map (.inst x e :: ·)
          | _ => none
      | .word "machine" :: .word x :: .op .semi :: ts => (stmts n ts).map (.machine x :: ·)
      | .word "alphtype" :: .word x :: .op .semi :: ts => (stmts n ts).map (.alphtype x :: ·)
      | .word "action" :: .word x :: .code c :: ts => (stmts n ts).map (.action x c :: ·)
      | _ => none

/-- The statements of a block, given by its lines. -/
def parseBlock (ls : List (List Nat)) : Option (List RStmt) :=
  match unlines ls with
  | cs =>
      match lex (cs.length + 1) 0 cs with
      | some ts => stmts (4 * ts.length + 1) ts
      | none => none

/-- The statements of all blocks of a file. -/
def parseParts : List Part → Option (List RStmt)
  | [] => some []
  | .block ls :: ps => do let a ← parseBlock ls; let b ← parseParts ps; pure (a ++ b)
  | _ :: ps => parseParts ps

/-! ## What the definitions stand for -/

/-- The expression of the last definition of a name. -/
def lookup (x : String) : List RStmt → Option RExp
  | [] => none
  | .define y e :: ss => match lookup x ss with | some e => some e | none => if y = x then some e else none
  | .inst y e :: ss => match lookup x ss with | some e => some e | none => if y = x then some e else none
  | _ :: ss => lookup x ss

/-- The name of an action statement. -/
def actionName : RStmt → Option String
  | .action x _ => some x
  | _ => none

/-- The code of an action. -/
def actionOf (x : String) : List RStmt → Option (List (List Nat))
  | [] => none
  | .action y c :: ss => if y = x then some c else actionOf x ss
  | _ :: ss => actionOf x ss

/-- The builtin machines (with the alphabet `uint8`). -/
def builtin : String → Option Rl
  | "digit" => some (.cls [(48, 57)])
  | "lower" => some (.cls [(97, 122)])
  | "upper" => some (.cls [(65, 90)])
  | "alnum" => some (.cls [(48, 57), (65, 90), (97, 122)])
  | "any" => some (.cls [(0, 255)])
  | _ => none

/-- The actions of the file and those of the model (`mark_scim_name` and `mark_scim_other` have the same text). -/
def actNames : List (String × Act) :=
  [("mark", .mark), ("tolower", .tolower), ("set_pre", .setPre), ("throw_pre_urn_err", .throwPreUrnErr), ("set_nid", .setNid),
   ("set_nss", .setNss), ("err_pre", .errPre), ("err_nid", .errNid), ("err_nss", .errNss), ("err_urn", .errUrn), ("err_hex", .errHex),
   ("base_type", .baseType), ("err_scim_nid", .errScimNid), ("err_scim_type", .errScimType), ("err_scim_name", .errScimName),
   ("err_scim_other", .errScimOther), ("scim_type", .scimType), ("create_scim", .createScim), ("set_scim_type", .setScimType),
   ("mark_scim_name", .markScim), ("set_scim_name", .setScimName), ("mark_scim_other", .markScim), ("set_scim_other", .setScimOther),
   ("err_nss_8141", .errNss8141), ("err_nid_8141", .errNid8141), ("rfc8141_type", .rfc8141Type), ("set_r_component", .setRComponent),
   ("set_q_component", .setQComponent), ("set_f_component", .setFComponent), ("informal_nid_match", .informalNidMatch),
   ("mark_r_start", .markRStart), ("mark_q_start", .markQStart), ("err_malformed_r_component", .errMalformedR),
   ("err_malformed_q_component", .errMalformedQ)]

def actOf (x : String) : List (String × Act) → Option Act
  | [] => none
  | (y, a) :: l => if y = x then some a else actOf x l

/-- A range without the characters of another. -/
def cut (r b : Nat × Nat) : List (Nat × Nat) :=
  if b.2 < r.1 ∨ r.2 < b.1 then [r]
  else (if r.1 < b.1 then [(r.1, b.1 - 1)] else []) ++ (if b.2 < r.2 then [(b.2 + 1, r.2)] else [])

/-- The characters of some ranges that are not in others. -/
def cutAll (rs : List (Nat × Nat)) : List (Nat × Nat) → List (Nat × Nat)
  | [] => rs
  | b :: bs => cutAll (rs.flatMap fun r => cut r b) bs

def toRanges (rs : List (Nat × Nat)) : Ranges := rs.map fun r => (UInt8.ofNat r.1, UInt8.ofNat r.2)
def ofRanges (rs : Ranges) : List (Nat × Nat) := rs.map fun r => (r.1.toNat, r.2.toNat)

/-- The difference of two expressions.  That of two sets of characters is a set again: Ragel removes states from which no
final state can be reached. -/
def diff : Rl → Rl → Rl
  | .cls a, .cls b => .cls (toRanges (cutAll (ofRanges a) (ofRanges b)))
  | a, b => .diff a b

/-- `'text'` -/
def textOf : List Nat → Option Rl
  | [] => none
  | c :: cs => some (cs.foldl (fun a d => .cat a (.cls [(UInt8.ofNat d, UInt8.ofNat d)])) (.cls [(UInt8.ofNat c, UInt8.ofNat c)]))

/-- All states of the expression are final. -/
def allFinal : Rl → Bool
  | .star (.cls _) => true
  | _ => false

/-- The actions embedded in `a`.  Code for errors in states that are not final (`fail := (any - [\n\r])* @err{ fgoto main; }`)
is never executed if all states are final. -/
def acts (a : Rl) : List (Embed × RAct) → Option (List (Embed × Act))
  | [] => some []
  | (e, .name x) :: l =>
      match actOf x actNames, acts a l with
      | some b, some r => some ((e, b) :: r)
      | _, _ => none
  | (e, .code _) :: l => if e = .errNotFinal ∧ allFinal a = true then acts a l else none

/-- The expression with names replaced by what they stand for. -/
def expand (ss : List RStmt) : Nat → RExp → Option Rl
  | 0, _ => none
  | n + 1, e =>
      match e with
      | .name x =>
          match lookup x ss with
          | some e => expand ss n e
          | none => builtin x
      | .lit cs => textOf cs
      | .cls rs => some (.cls (toRanges rs))
      | .cat a b => do pure (.cat (← expand ss n a) (← expand ss n b))
      | .leftGuarded a b => do pure (.leftGuarded (← expand ss n a) (← expand ss n b))
      | .finishGuarded a b => do pure (.finishGuarded (← expand ss n a) (← expand ss n b))
      | .alt a b => do pure (.alt (← expand ss n a) (← expand ss n b))
      | .diff a b => do pure (diff (← expand ss n a) (← expand ss n b))
      | .star a => do pure (.star (← expand ss n a))
      | .plus a => do pure (.plus (← expand ss n a))
      | .opt a => do pure (.opt (← expand ss n a))
      | .rep 2 2 a => do pure (.twice (← expand ss n a))
      | .rep 0 k a => do pure (.upTo k (← expand ss n a))
      | .rep _ _ _ => none
      | .with a l => do
          let a ← expand ss n a
          match ← acts a l with
          | [] => pure a
          | l => pure (.with a l)

/-- The names with `:=`, in order. -/
def insts : List RStmt → List String
  | [] => []
  | .inst x _ :: ss => x :: insts ss
  | _ :: ss => insts ss

end Urn.RlLang
