import Verif.GoText
import Verif.ToolSource
import Verif.ToolSem
import Verif.RegexRuneAux
/-!
# The source files of the tools as syntax trees, and their regular expressions

As in `GoText.lean`: the elaborators only compute candidates, and the kernel checks the results by evaluating the lexer, the
parser and the reader of regular expressions.
-/
set_option autoImplicit false
set_option maxRecDepth 10000000
namespace Urn.ToolLang
open Lean Elab Meta Term
open GoLang (codes ofCodes codes_ofCodes bytesOf)

deriving instance ToExpr for Expr, Exprs, Stmt, Stmts
deriving instance ToExpr for Decl
deriving instance ToExpr for Fn

/-- The declarations of a file. -/
elab "tool_ast% " x:term : term => do
  let e ← elabTerm (← `(Option.getD (parseCodes $x) [])) (some (toTypeExpr (List Decl)))
  synthesizeSyntheticMVarsNoPostponing
  let l ← unsafe evalExpr (List Decl) (toTypeExpr (List Decl)) (← instantiateMVars e)
  return toExpr l

/-- The value of a term that is a function. -/
elab "tool_fn% " x:term : term => do
  let e ← elabTerm x (some (toTypeExpr Fn))
  synthesizeSyntheticMVarsNoPostponing
  let l ← unsafe evalExpr Fn (toTypeExpr Fn) (← instantiateMVars e)
  return toExpr l

/-- The value of a term that is a list of statements. -/
elab "tool_stmts% " x:term : term => do
  let e ← elabTerm x (some (toTypeExpr Stmts))
  synthesizeSyntheticMVarsNoPostponing
  let l ← unsafe evalExpr Stmts (toTypeExpr Stmts) (← instantiateMVars e)
  return toExpr l

/-- The parser on a text, from the parser on its characters. -/
theorem parseFile_eq {t : List String} {c : List (List Nat)} {d : List Decl} (h : t = c.map ofCodes)
    (ha : c.all (·.all (Nat.ble · 127)) = true) (hp : parseCodes c = some d) : parseFile t = some d := by
  have : t.map codes = c := by
    rw [h, List.map_map]
    conv => rhs; rw [← List.map_id c]
    apply List.map_congr_left
    intro a h'
    exact codes_ofCodes a (List.all_eq_true.1 ha a h')
  unfold parseFile
  rw [this]
  exact hp

/-- The functions of a file. -/
def fnsOf : List Decl → List Fn
  | [] => []
  | .var _ _ :: ds => fnsOf ds
  | .func f ps b :: ds => ⟨f, ps, b⟩ :: fnsOf ds

/-! ## removecomments.go -/

def rcC : List (List Nat) := codes% ToolSource.removecommentsGo
def rcAst : List Decl := tool_ast% rcC
theorem rc_parse : parseFile ToolSource.removecommentsGo = some rcAst :=
  parseFile_eq (c := rcC) (by kernel_rfl) (by decide +kernel) (by kernel_rfl)

/-! ## snake2camel.go -/

def scC : List (List Nat) := codes% ToolSource.snake2camelGo
def scAst : List Decl := tool_ast% scC
theorem sc_parse : parseFile ToolSource.snake2camelGo = some scAst :=
  parseFile_eq (c := scC) (by kernel_rfl) (by decide +kernel) (by kernel_rfl)

/-! ## The functions -/

def nthFn (ds : List Decl) (i : Nat) : Fn := (fnsOf ds)[i]?.getD ⟨"", [], .nil⟩

/-- removecomments.go:25-27 -/
def rcRemoveComments : Fn := tool_fn% nthFn rcAst 0
/-- removecomments.go:29-36 -/
def rcFile : Fn := tool_fn% nthFn rcAst 1
/-- removecomments.go:38-42 -/
def rcExit : Fn := tool_fn% nthFn rcAst 2
/-- removecomments.go:44-52 -/
def rcMain : Fn := tool_fn% nthFn rcAst 3

/-- snake2camel.go:10-14 -/
def scExit : Fn := tool_fn% nthFn scAst 0
/-- snake2camel.go:16-35 -/
def scReplace : Fn := tool_fn% nthFn scAst 1
/-- snake2camel.go:37-49 -/
def scSnake : Fn := tool_fn% nthFn scAst 2
/-- snake2camel.go:51-59 -/
def scFile : Fn := tool_fn% nthFn scAst 3
/-- snake2camel.go:61-69 -/
def scMain : Fn := tool_fn% nthFn scAst 4

/-- The body of the first loop in a list of statements. -/
def loopBody : Stmts → Stmts
  | .cons (.range _ _ b) _ => b
  | .cons (.for_ _ _ _ b) _ => b
  | .cons _ ss => loopBody ss
  | .nil => .nil

/-- The statements from the first loop on. -/
def fromLoop : Stmts → Stmts
  | .nil => .nil
  | .cons (.range x e b) ss => .cons (.range x e b) ss
  | .cons (.for_ a b c d) ss => .cons (.for_ a b c d) ss
  | .cons _ ss => fromLoop ss

/-- snake2camel.go:21-31, the body of the loop -/
def scRange : Stmts := tool_stmts% loopBody scReplace.body
/-- snake2camel.go:22-31, from the inner loop on -/
def scFor : Stmts := tool_stmts% fromLoop scRange
/-- snake2camel.go:42-48 -/
def scRounds : Stmts := tool_stmts% fromLoop scSnake.body

def rcProg : Prog := ⟨[("commentLineRegex", .regexp Regex.commentRx)], [rcRemoveComments, rcFile, rcExit, rcMain]⟩
def scProg : Prog := ⟨[], [scExit, scReplace, scSnake, scFile, scMain]⟩

theorem rc_decls (S : Sys) : addDecls S rcAst {} = .ok rcProg := by kernel_rfl
theorem sc_decls (S : Sys) : addDecls S scAst {} = .ok scProg := by kernel_rfl

end Urn.ToolLang
