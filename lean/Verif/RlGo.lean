import Verif.RlText
import Verif.RlCamel
/-!
# The Go code around the grammar

What machine.go.rl has outside of the grammar, after snake2camel, and machine.go.
-/
set_option autoImplicit false
set_option maxRecDepth 10000000
namespace Urn.RlLang
open Lean Elab Meta Term
open GoLang (Decl Stmts Stmt)

/-- The Go code of a file.  Where the parser is to be written (`%% write exec;`) there is an empty block; nothing is written
for the other directives (the data for `%% write data noerror noprefix;` is looked at below). -/
def goLines : List Part → List (List Nat)
  | [] => []
  | .go l :: ps => l :: goLines ps
  | .line l :: ps => if l = GoLang.codes " write exec;" then [123, 125] :: goLines ps else goLines ps
  | .block _ :: ps => goLines ps

/-- Its text. -/
def goText (ps : List Part) : Bytes := (unlines (goLines ps)).map UInt8.ofNat

/-- The lines of a text, without the newlines, as the lexer wants them. -/
def linesOf (t : Bytes) : List (List Nat) := (SpecTools.lines t).map fun l => (l.filter (· != 10)).map UInt8.toNat

/-- The block in the body of `Parse`. -/
def fill (b : Stmts) : Stmts → Stmts
  | .nil => .nil
  | .cons (.block .nil) ss => .cons (.block b) ss
  | .cons s ss => .cons s (fill b ss)

/-- The parser put in its place. -/
def fillDecl (b : Stmts) : Decl → Decl
  | .func r "Parse" ps rs body => .func r "Parse" ps rs (fill b body)
  | d => d

/-- The bytes of a list of lines. -/
elab "bytess% " x:term : term => do
  let e ← elabTerm x (some (toTypeExpr (List (List Nat))))
  synthesizeSyntheticMVarsNoPostponing
  let l ← unsafe evalExpr (List (List Nat)) (toTypeExpr (List (List Nat))) (← instantiateMVars e)
  return toExpr l

/-- The lines that snake2camel leaves. -/
def camelC : List (List Nat) :=
  bytess% ((Tools.camelLines 100 (SpecTools.lines (goText rlParts))).getD []).map fun l => (l.filter (· != 10)).map UInt8.toNat

/-- The text that snake2camel leaves. -/
def camelText : Bytes := (unlines camelC).map UInt8.ofNat

set_option maxHeartbeats 1000000 in
theorem camel_lines : Tools.camelLines 100 (SpecTools.lines (goText rlParts)) = some (SpecTools.lines camelText) := by kernel_rfl

theorem goText_count : (goText rlParts).count 95 + 2 ≤ 100 := by decide +kernel

theorem camel_done : Tools.snake2camel 100 (goText rlParts) = .ok camelText := Tools.camel_eq goText_count camel_lines

theorem camel_codes : linesOf camelText = camelC := by kernel_rfl

def rlAst : List Decl := ast% camelC
theorem rl_go : GoLang.parseCodes (linesOf camelText) = some rlAst := by
  rw [camel_codes]
  kernel_rfl

/-- The declarations before `%% write data` and after it: the error texts; and the types and functions. -/
theorem rl_machine : GoLang.machineAst = rlAst.take 17 ++ (GoLang.machineAst.drop 17).take 8 ++
    (rlAst.drop 17).map (fillDecl GoLang.parseBlock) := by kernel_rfl

end Urn.RlLang
