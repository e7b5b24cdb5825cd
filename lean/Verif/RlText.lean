import Verif.RlSyntax
import Verif.RlSource
import Verif.GoTables
/-!
# machine.go.rl as syntax trees

The text of machine.go.rl (`RlSource.lean`) is given to the lexer and the parser of `RlSyntax.lean`, and the kernel checks what
comes out of them.  The code of the actions and the rest of the file, which are Go, are given to those of `GoSyntax.lean`.
-/
set_option autoImplicit false
set_option maxRecDepth 10000000
namespace Urn.RlLang
open Lean Elab Meta Term

deriving instance ToExpr for Part
deriving instance ToExpr for Ragel.Embed
deriving instance ToExpr for RAct
deriving instance ToExpr for RExp
deriving instance ToExpr for RStmt

/-- The value of a term that is a list of parts of a file. -/
elab "parts% " x:term : term => do
  let e ← elabTerm x (some (toTypeExpr (List Part)))
  synthesizeSyntheticMVarsNoPostponing
  let l ← unsafe evalExpr (List Part) (toTypeExpr (List Part)) (← instantiateMVars e)
  return toExpr l

/-- The value of a term that is the statements of a specification. -/
elab "rstmts% " x:term : term => do
  let e ← elabTerm x (some (toTypeExpr (List RStmt)))
  synthesizeSyntheticMVarsNoPostponing
  let l ← unsafe evalExpr (List RStmt) (toTypeExpr (List RStmt)) (← instantiateMVars e)
  return toExpr l

/-! ## The text, its parts, and the statements of the specification -/

def rlC : List (List Nat) := codes% RlSource.rlText.flatten
theorem rl_text : RlSource.rlText.flatten = rlC.map GoLang.ofCodes := by kernel_rfl
theorem rl_codes : RlSource.rlText.flatten.map GoLang.codes = rlC := by
  rw [rl_text, List.map_map]
  conv => rhs; rw [← List.map_id rlC]
  apply List.map_congr_left
  intro a h
  have ha : rlC.all (·.all (Nat.ble · 127)) = true := by decide +kernel
  exact GoLang.codes_ofCodes a (List.all_eq_true.1 ha a h)

def rlParts : List Part := parts% (parts rlC).getD []
theorem rl_parts : parts rlC = some rlParts := by kernel_rfl

def rlStmts : List RStmt := rstmts% (parseParts rlParts).getD []
theorem rl_stmts : parseParts rlParts = some rlStmts := by kernel_rfl

theorem rl_insts : insts rlStmts = ["scim_only", "rfc8141_only", "fail", "main"] := by kernel_rfl

theorem rl_main : expand rlStmts 100 (.name "main") = some Grammar.urn := by kernel_rfl
theorem rl_scim : expand rlStmts 100 (.name "scim_only") = some Grammar.scimOnly := by kernel_rfl
theorem rl_8141 : expand rlStmts 100 (.name "rfc8141_only") = some Grammar.rfc8141Only := by kernel_rfl
theorem rl_fail : expand rlStmts 100 (.name "fail") = some Grammar.fail := by kernel_rfl

/-! ## The code of the actions -/

open GoLang (Tok Stmts Decl)

/-- The code that Ragel writes for `fhold;` and `fgoto x;`, given the numbers of the entry states (`access m.`,
`variable p m.p`). -/
def host (en : String → Option Nat) : List Tok → Option (List Tok)
  | [] => some []
  | .id "fhold" :: .op .semi :: ts =>
      (host en ts).map ([.op .lpar, .id "m", .op .dot, .id "p", .op .rpar, .op .dec, .op .semi] ++ ·)
  | .id "fgoto" :: .id x :: .op .semi :: ts => do
      let n ← en x
      let r ← host en ts
      pure ([.id "m", .op .dot, .id "cs", .op .set, .num n, .op .semi, .kw .goto, .id "_again", .op .semi] ++ r)
  | t :: ts => (host en ts).map (t :: ·)

/-- The Go statements that the code of an action is. -/
def actionStmts (en : String → Option Nat) (ls : List (List Nat)) : Option Stmts := do
  let ts ← GoLang.lexCodes ls
  let ts ← host en ts
  match GoLang.stmts (2 * ts.length + 2) [] (ts ++ [.op .rbrc]) with
  | some (b, []) => some b
  | _ => none

/-- The number of the entry state of `fail` in machine.go:89. -/
def en (x : String) : Option Nat := if x = "fail" then some 193 else none

theorem en_fail : GoLang.get "enFail" GoLang.prog.consts = some (.int "int" 193) := by kernel_rfl

theorem rl_actions : actNames.map (fun x => (actionOf x.1 rlStmts).bind (actionStmts en)) =
    actNames.map fun x => some (GoLang.actStmts x.2) := by kernel_rfl

theorem rl_names : rlStmts.filterMap actionName = actNames.map Prod.fst := by
  kernel_rfl

end Urn.RlLang
