import Lean
import Verif.GoSource
import Verif.GoSem
/-!
# The source files as syntax trees

The text of the files of /repo (`GoSource.lean`) is given to the lexer and the parser of `GoSyntax.lean`, and the kernel
checks what comes out of them.  The elaborators `codes%` and `val%` only compute candidates; every result is an equation that
the kernel checks by evaluating the lexer and the parser.
-/
set_option autoImplicit false
set_option maxRecDepth 10000000
namespace Urn.GoLang
open Lean Elab Meta Term

deriving instance ToExpr for Ty
deriving instance ToExpr for BinOp
deriving instance ToExpr for UnOp
deriving instance ToExpr for Param
deriving instance ToExpr for Expr, Exprs, Elems, Stmt, Stmts, Cases
deriving instance ToExpr for TyDecl
deriving instance ToExpr for Decl
deriving instance ToExpr for Fn

/-- The characters of the lines of a text. -/
elab "codes% " x:term : term => do
  let e ← elabTerm (← `(List.map codes $x)) (some (toTypeExpr (List (List Nat))))
  synthesizeSyntheticMVarsNoPostponing
  let l ← unsafe evalExpr (List (List Nat)) (toTypeExpr (List (List Nat))) (← instantiateMVars e)
  return toExpr l

/-- The declarations of a file. -/
elab "ast% " x:term : term => do
  let e ← elabTerm (← `(Option.getD (parseCodes $x) [])) (some (toTypeExpr (List Decl)))
  synthesizeSyntheticMVarsNoPostponing
  let l ← unsafe evalExpr (List Decl) (toTypeExpr (List Decl)) (← instantiateMVars e)
  return toExpr l

/-- The value of a term that is a list of statements. -/
elab "stmts% " x:term : term => do
  let e ← elabTerm x (some (toTypeExpr Stmts))
  synthesizeSyntheticMVarsNoPostponing
  let l ← unsafe evalExpr Stmts (toTypeExpr Stmts) (← instantiateMVars e)
  return toExpr l

/-- The value of a term that is a function. -/
elab "fn% " x:term : term => do
  let e ← elabTerm x (some (toTypeExpr Fn))
  synthesizeSyntheticMVarsNoPostponing
  let l ← unsafe evalExpr Fn (toTypeExpr Fn) (← instantiateMVars e)
  return toExpr l

/-- Close `a = b` by `rfl`, leaving the check to the kernel. -/
elab "kernel_rfl" : tactic => do
  let g ← Tactic.getMainGoal
  g.withContext do
    let t ← instantiateMVars (← g.getType)
    match t.eq? with
    | some (ty, _, b) =>
        let u ← getLevel ty
        g.assign (mkApp2 (mkConst ``Eq.refl [u]) ty b)
        Tactic.replaceMainGoal []
    | none => throwError "not an equation"

theorem codes_ofCodes (l : List Nat) (h : l.all (Nat.ble · 127) = true) : codes (ofCodes l) = l := by
  unfold codes ofCodes
  rw [String.toList_ofList, List.map_map]
  conv => rhs; rw [← List.map_id l]
  apply List.map_congr_left
  intro a ha
  have : a ≤ 127 := Nat.le_of_ble_eq_true (List.all_eq_true.1 h a ha)
  have hv : Nat.isValidChar a := by left; omega
  show (Char.ofNat a).toNat = a
  simp [Char.ofNat, hv, Char.toNat, Char.ofNatAux]

/-- The parser on a text, from the parser on its characters. -/
theorem parseFile_eq {t : List String} {c : List (List Nat)} {d : List Decl} (h : t = c.map ofCodes)
    (ha : c.all (·.all (Nat.ble · 127)) = true) (hp : parseCodes c = some d) : parseFile t = some d := by
  have : t.map codes = c := by
    rw [h, List.map_map]
    conv => rhs; rw [← List.map_id c]
    apply List.map_congr_left
    intro a h'
    exact codes_ofCodes a (List.all_eq_true.1 ha a h')
  unfold parseFile
  rw [this]
  exact hp

/-! ## kind.go -/

def kindC : List (List Nat) := codes% GoSource.kindGo
def kindAst : List Decl := ast% kindC
theorem kind_parse : parseFile GoSource.kindGo = some kindAst :=
  parseFile_eq (c := kindC) (by kernel_rfl) (by decide +kernel) (by kernel_rfl)

/-! ## parsing_mode.go -/

def parsingModeC : List (List Nat) := codes% GoSource.parsingModeGo
def parsingModeAst : List Decl := ast% parsingModeC
theorem parsingMode_parse : parseFile GoSource.parsingModeGo = some parsingModeAst :=
  parseFile_eq (c := parsingModeC) (by kernel_rfl) (by decide +kernel) (by kernel_rfl)

/-! ## options.go -/

def optionsC : List (List Nat) := codes% GoSource.optionsGo
def optionsAst : List Decl := ast% optionsC
theorem options_parse : parseFile GoSource.optionsGo = some optionsAst :=
  parseFile_eq (c := optionsC) (by kernel_rfl) (by decide +kernel) (by kernel_rfl)

/-! ## scim/schema/type.go -/

def schemaTypeC : List (List Nat) := codes% GoSource.schemaTypeGo
def schemaTypeAst : List Decl := ast% schemaTypeC
theorem schemaType_parse : parseFile GoSource.schemaTypeGo = some schemaTypeAst :=
  parseFile_eq (c := schemaTypeC) (by kernel_rfl) (by decide +kernel) (by kernel_rfl)

/-! ## scim.go -/

def scimC : List (List Nat) := codes% GoSource.scimGo
def scimAst : List Decl := ast% scimC
theorem scim_parse : parseFile GoSource.scimGo = some scimAst :=
  parseFile_eq (c := scimC) (by kernel_rfl) (by decide +kernel) (by kernel_rfl)

/-! ## urn.go -/

def urnC : List (List Nat) := codes% GoSource.urnGo
def urnAst : List Decl := ast% urnC
theorem urn_parse : parseFile GoSource.urnGo = some urnAst :=
  parseFile_eq (c := urnC) (by kernel_rfl) (by decide +kernel) (by kernel_rfl)

/-! ## urn8141.go -/

def urn8141C : List (List Nat) := codes% GoSource.urn8141Go
def urn8141Ast : List Decl := ast% urn8141C
theorem urn8141_parse : parseFile GoSource.urn8141Go = some urn8141Ast :=
  parseFile_eq (c := urn8141C) (by kernel_rfl) (by decide +kernel) (by kernel_rfl)

/-! ## machine.go -/

def machineC0 : List (List Nat) := codes% GoSource.machineGo0
theorem machine_text0 : GoSource.machineGo0 = machineC0.map ofCodes := by kernel_rfl
def machineC1 : List (List Nat) := codes% GoSource.machineGo1
theorem machine_text1 : GoSource.machineGo1 = machineC1.map ofCodes := by kernel_rfl
def machineC2 : List (List Nat) := codes% GoSource.machineGo2
theorem machine_text2 : GoSource.machineGo2 = machineC2.map ofCodes := by kernel_rfl
def machineC3 : List (List Nat) := codes% GoSource.machineGo3
theorem machine_text3 : GoSource.machineGo3 = machineC3.map ofCodes := by kernel_rfl
def machineC4 : List (List Nat) := codes% GoSource.machineGo4
theorem machine_text4 : GoSource.machineGo4 = machineC4.map ofCodes := by kernel_rfl
def machineC5 : List (List Nat) := codes% GoSource.machineGo5
theorem machine_text5 : GoSource.machineGo5 = machineC5.map ofCodes := by kernel_rfl
def machineC6 : List (List Nat) := codes% GoSource.machineGo6
theorem machine_text6 : GoSource.machineGo6 = machineC6.map ofCodes := by kernel_rfl
def machineC7 : List (List Nat) := codes% GoSource.machineGo7
theorem machine_text7 : GoSource.machineGo7 = machineC7.map ofCodes := by kernel_rfl
def machineC8 : List (List Nat) := codes% GoSource.machineGo8
theorem machine_text8 : GoSource.machineGo8 = machineC8.map ofCodes := by kernel_rfl
def machineC9 : List (List Nat) := codes% GoSource.machineGo9
theorem machine_text9 : GoSource.machineGo9 = machineC9.map ofCodes := by kernel_rfl
def machineC10 : List (List Nat) := codes% GoSource.machineGo10
theorem machine_text10 : GoSource.machineGo10 = machineC10.map ofCodes := by kernel_rfl
def machineC11 : List (List Nat) := codes% GoSource.machineGo11
theorem machine_text11 : GoSource.machineGo11 = machineC11.map ofCodes := by kernel_rfl
def machineC12 : List (List Nat) := codes% GoSource.machineGo12
theorem machine_text12 : GoSource.machineGo12 = machineC12.map ofCodes := by kernel_rfl
def machineC13 : List (List Nat) := codes% GoSource.machineGo13
theorem machine_text13 : GoSource.machineGo13 = machineC13.map ofCodes := by kernel_rfl
def machineC14 : List (List Nat) := codes% GoSource.machineGo14
theorem machine_text14 : GoSource.machineGo14 = machineC14.map ofCodes := by kernel_rfl
def machineC15 : List (List Nat) := codes% GoSource.machineGo15
theorem machine_text15 : GoSource.machineGo15 = machineC15.map ofCodes := by kernel_rfl
def machineC16 : List (List Nat) := codes% GoSource.machineGo16
theorem machine_text16 : GoSource.machineGo16 = machineC16.map ofCodes := by kernel_rfl
def machineC17 : List (List Nat) := codes% GoSource.machineGo17
theorem machine_text17 : GoSource.machineGo17 = machineC17.map ofCodes := by kernel_rfl
def machineC18 : List (List Nat) := codes% GoSource.machineGo18
theorem machine_text18 : GoSource.machineGo18 = machineC18.map ofCodes := by kernel_rfl
def machineC19 : List (List Nat) := codes% GoSource.machineGo19
theorem machine_text19 : GoSource.machineGo19 = machineC19.map ofCodes := by kernel_rfl
def machineC20 : List (List Nat) := codes% GoSource.machineGo20
theorem machine_text20 : GoSource.machineGo20 = machineC20.map ofCodes := by kernel_rfl
def machineC21 : List (List Nat) := codes% GoSource.machineGo21
theorem machine_text21 : GoSource.machineGo21 = machineC21.map ofCodes := by kernel_rfl
def machineC22 : List (List Nat) := codes% GoSource.machineGo22
theorem machine_text22 : GoSource.machineGo22 = machineC22.map ofCodes := by kernel_rfl
def machineC23 : List (List Nat) := codes% GoSource.machineGo23
theorem machine_text23 : GoSource.machineGo23 = machineC23.map ofCodes := by kernel_rfl
def machineC24 : List (List Nat) := codes% GoSource.machineGo24
theorem machine_text24 : GoSource.machineGo24 = machineC24.map ofCodes := by kernel_rfl
def machineC25 : List (List Nat) := codes% GoSource.machineGo25
theorem machine_text25 : GoSource.machineGo25 = machineC25.map ofCodes := by kernel_rfl
def machineC : List (List (List Nat)) :=
  [machineC0, machineC1, machineC2, machineC3, machineC4, machineC5, machineC6, machineC7, machineC8, machineC9, machineC10, machineC11, machineC12, machineC13, machineC14, machineC15, machineC16, machineC17, machineC18, machineC19, machineC20, machineC21, machineC22, machineC23, machineC24, machineC25]
def machineAst : List Decl := ast% machineC.flatten
theorem machine_text : GoSource.machineGo.flatten = machineC.flatten.map ofCodes := by
  rw [List.map_flatten]
  simp only [GoSource.machineGo, machineC, List.map_cons, List.map_nil, machine_text0, machine_text1, machine_text2, machine_text3, machine_text4, machine_text5, machine_text6, machine_text7, machine_text8, machine_text9, machine_text10, machine_text11, machine_text12, machine_text13, machine_text14, machine_text15, machine_text16, machine_text17, machine_text18, machine_text19, machine_text20, machine_text21, machine_text22, machine_text23, machine_text24, machine_text25]
theorem machine_parse : parseFile GoSource.machineGo.flatten = some machineAst :=
  parseFile_eq (c := machineC.flatten) machine_text (by decide +kernel) (by kernel_rfl)

/-! ## The program -/

/-- The declarations of all files. -/
def allAst : List Decl := kindAst ++ parsingModeAst ++ optionsAst ++ schemaTypeAst ++ scimAst ++ urnAst ++ urn8141Ast ++ machineAst

/-- The program that the files are. -/
def prog : Prog := (addDecls {} allAst).getD {}

theorem prog_eq : addDecls {} allAst = some prog := by kernel_rfl

/-- A function of the program. -/
def fnOf (r : Option Ty) (f : String) : Fn := (findFn prog r f).getD ⟨none, "", [], [], .nil⟩

end Urn.GoLang
