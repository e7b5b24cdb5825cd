import Verif.GoText
import Verif.GoEval
import Verif.Machine
/-!
# The generated code in the text of machine.go and the tables of the model

The block of `Parse` in machine.go (the syntax tree that comes from the text) is compared with `Tables.lean`: the cases of
`switch m.cs`, the `tr` labels, the `f` labels, the cases of `switch _eofActions[m.cs]`.
-/
set_option autoImplicit false
set_option maxRecDepth 10000000
namespace Urn.GoLang
open Lean Elab Meta Term
open Tables (Act)

/-- The value of a term that is a list of texts. -/
elab "strs% " x:term : term => do
  let e ← elabTerm x (some (toTypeExpr (List String)))
  synthesizeSyntheticMVarsNoPostponing
  let l ← unsafe evalExpr (List String) (toTypeExpr (List String)) (← instantiateMVars e)
  return toExpr l

/-- The value of a term that is the cases of a switch. -/
elab "cases% " x:term : term => do
  let e ← elabTerm x (some (toTypeExpr Cases))
  synthesizeSyntheticMVarsNoPostponing
  let l ← unsafe evalExpr Cases (toTypeExpr Cases) (← instantiateMVars e)
  return toExpr l

/-- machine.go:138 -/
def parseFn : Fn := fn% fnOf (some (.ptr (.name "machine"))) "Parse"
theorem find_parse : findFn prog (some (.ptr (.name "machine"))) "Parse" = some parseFn := by kernel_rfl

/-! ## The actions, as syntax trees -/

/-- `m.f` -/
abbrev mSel (f : String) : Expr := .sel (.id "m") f
/-- `output.f` -/
abbrev oSel (f : String) : Expr := .sel (.id "output") f
/-- `l = e` -/
abbrev asg (l e : Expr) : Stmt := .assign (.cons l .nil) (.cons e .nil)
/-- `string(m.text())` -/
abbrev textE : Expr := .call (.id "string") (.cons (.call (.sel (.id "m") "text") .nil false) .nil) false
/-- `m.err = fmt.Errorf(t, e)` -/
abbrev errS (t : String) (e : Expr) : Stmt :=
  asg (mSel "err") (.call (.sel (.id "fmt") "Errorf") (.cons (.id t) (.cons e .nil)) false)
/-- `(m.p)--`, `m.cs = 193`, `goto _again` -/
abbrev failS : Stmts := .cons (.dec (mSel "p")) (.cons (asg (mSel "cs") (.num 193)) (.cons (.goto "_again") .nil))
/-- `m.data[m.pb+i]` -/
abbrev dataI : Expr := .index (mSel "data") (.bin .add (mSel "pb") (.id "i"))
/-- `for _, i := range output.tolower { m.data[m.pb+i] = m.data[m.pb+i] o 32 }` -/
abbrev shiftS (o : BinOp) : Stmt := .range "i" (oSel "tolower") (.cons (asg dataI (.bin o dataI (.num 32))) .nil)
/-- `string(m.data[output.scim.pos:m.p])` -/
abbrev scimText : Expr :=
  .call (.id "string") (.cons (.slice (mSel "data") (.sel (oSel "scim") "pos") (mSel "p")) .nil) false
/-- `if c {...}` -/
abbrev ifS (c : Expr) (a : Stmts) : Stmt := .if_ .nil c a .nil

/-- The text of the actions (machine.go.rl:35-262, with Ragel's `fhold` and `fgoto` as in machine.go). -/
def actStmts : Act → Stmts
  | .mark => .cons (asg (mSel "pb") (mSel "p")) .nil
  | .tolower => .cons (asg (oSel "tolower") (.call (.id "append") (.cons (oSel "tolower")
      (.cons (.bin .sub (mSel "p") (mSel "pb")) .nil)) false)) .nil
  | .setPre => .cons (asg (oSel "prefix") textE) .nil
  | .throwPreUrnErr => .cons (ifS (.bin .ne (mSel "parsingMode") (.id "RFC8141Only"))
      (.cons (.if_ (.cons (.define ["pos"] (.cons (.bin .add (mSel "p") (.num 3)) .nil)) .nil)
        (.bin .and (.bin .and (.bin .lt (.id "pos") (mSel "pe")) (.bin .eq (.index (mSel "data") (.id "pos")) (.num 58)))
          (.bin .ne (oSel "prefix") (.str [])))
        (.cons (errS "errNoUrnWithinID" (.id "pos")) failS) .nil) .nil)) .nil
  | .setNid => .cons (asg (oSel "ID") textE) .nil
  | .setNss => .cons (asg (oSel "SS") textE) (.cons (shiftS .add) (.cons (asg (oSel "norm") textE) (.cons (shiftS .sub) .nil)))
  | .errPre => .cons (errS "errPrefix" (mSel "p")) failS
  | .errNid => .cons (errS "errIdentifier" (mSel "p")) failS
  | .errNss => .cons (errS "errSpecificString" (mSel "p")) failS
  | .errUrn => .cons (errS "errNoUrnWithinID" (mSel "p")) failS
  | .errHex => .cons (ifS (.bin .or (.bin .eq (mSel "parsingMode") (.id "RFC2141Only"))
      (.bin .eq (mSel "parsingMode") (.id "RFC8141Only"))) (.cons (errS "errHex" (mSel "p")) failS)) .nil
  | .baseType => .cons (asg (oSel "kind") (.id "RFC2141")) .nil
  | .errScimNid => .cons (errS "errSCIMNamespace" (mSel "p")) failS
  | .errScimType => .cons (errS "errSCIMType" (mSel "p")) failS
  | .errScimName => .cons (errS "errSCIMName" (mSel "p")) failS
  | .errScimOther => .cons (.if_ .nil (.bin .eq (mSel "p") (mSel "pe"))
      (.cons (errS "errSCIMOtherIncomplete" (.bin .sub (mSel "p") (.num 1))) .nil)
      (.cons (errS "errSCIMOther" (mSel "p")) .nil)) failS
  | .scimType => .cons (asg (oSel "kind") (.id "RFC7643")) .nil
  | .createScim => .cons (asg (oSel "scim") (.un .addr (.lit (.name "SCIM") .nil))) .nil
  | .setScimType => .cons (asg (.sel (oSel "scim") "Type")
      (.call (.sel (.id "scimschema") "TypeFromString") (.cons textE .nil) false)) .nil
  | .markScim => .cons (asg (.sel (oSel "scim") "pos") (mSel "p")) .nil
  | .setScimName => .cons (asg (.sel (oSel "scim") "Name") scimText) .nil
  | .setScimOther => .cons (asg (.sel (oSel "scim") "Other") scimText) .nil
  | .errNss8141 => .cons (errS "err8141SpecificString" (mSel "p")) failS
  | .errNid8141 => .cons (errS "err8141Identifier" (mSel "p")) failS
  | .rfc8141Type => .cons (asg (oSel "kind") (.id "RFC8141")) .nil
  | .setRComponent => .cons (asg (oSel "rComponent") textE) .nil
  | .setQComponent => .cons (asg (oSel "qComponent") textE) .nil
  | .setFComponent => .cons (asg (oSel "fComponent") textE) .nil
  | .informalNidMatch => .cons (.dec (mSel "p")) (.cons (errS "err8141InformalID" (mSel "p"))
      (.cons (asg (mSel "cs") (.num 193)) (.cons (.goto "_again") .nil)))
  | .markRStart => .cons (ifS (oSel "rStart") (.cons (errS "err8141RComponentStart" (mSel "p")) failS))
      (.cons (asg (oSel "rStart") (.id "true")) .nil)
  | .markQStart => .cons (ifS (oSel "qStart") (.cons (errS "err8141QComponentStart" (mSel "p")) failS))
      (.cons (asg (oSel "qStart") (.id "true")) .nil)
  | .errMalformedR => .cons (errS "err8141MalformedRComp" (mSel "p")) failS
  | .errMalformedQ => .cons (errS "err8141MalformedQComp" (mSel "p")) failS

def actsStmts : List Act → Stmts
  | [] => .nil
  | a :: as => (actStmts a).append (actsStmts as)

/-! ## The block -/

/-- The block in the body of `Parse` (machine.go:149-5027). -/
def blockIn : Stmts → Stmts
  | .cons (.block b) _ => b
  | .cons _ ss => blockIn ss
  | .nil => .nil
def parseBlock : Stmts := stmts% blockIn parseFn.body

/-! ### Labels -/

def trNames : List String := strs% (List.range 250).map fun n => s!"tr{n}"
def fNames : List String := strs% (List.range 52).map fun n => s!"f{n}"
def trName (n : Nat) : String := trNames.getD n ""
def fName (n : Nat) : String := fNames.getD n ""

/-- The number that a text of digits is. -/
def digits : Nat → List Nat → Nat
  | acc, [] => acc
  | acc, d :: ds => digits (acc * 10 + (d - 48)) ds

/-- `trN` is `some (true, N)`, `fN` is `some (false, N)`. -/
def decode (cs : List Nat) : Option (Bool × Nat) :=
  match cs with
  | 116 :: 114 :: ds => some (true, digits 0 ds)
  | 102 :: ds => some (false, digits 0 ds)
  | _ => none

def nameOf : Bool × Nat → String
  | (true, n) => trName n
  | (false, n) => fName n

/-- Where a `tr` label goes after setting the state. -/
def fLabel : Option Nat → String
  | none => "_again"
  | some f => fName f

/-- What the statements after a label must be. -/
def labelOK : Bool × Nat → Stmts → Bool
  | (true, n), .cons a (.cons b _) =>
      Stmt.same a (asg (mSel "cs") (.num (Tables.trRow n).1)) && Stmt.same b (.goto (fLabel (Tables.trRow n).2))
  | (true, _), _ => false
  | (false, n), ss =>
      match strip (actsStmts (Tables.fActs n)) ss with
      | some (.cons s _) => Stmt.same s (.goto "_again")
      | _ => false

/-- All labels of a block, one after the other. -/
def labelsOK : Stmts → Bool
  | .nil => true
  | .cons (.label l) ss =>
      (match decode (codes l) with
       | some x => decide (l = nameOf x) && labelOK x ss
       | none => true) && labelsOK ss
  | .cons _ ss => labelsOK ss

/-- The labels of a block. -/
def labelsOf : Stmts → List (Option (Bool × Nat))
  | .nil => []
  | .cons (.label l) ss => decode (codes l) :: labelsOf ss
  | .cons _ ss => labelsOf ss

theorem labels_ok : labelsOK parseBlock = true := by decide +kernel

/-- The value of a term that is a list of decoded labels. -/
elab "labels% " x:term : term => do
  let e ← elabTerm x (some (toTypeExpr (List (Option (Bool × Nat)))))
  synthesizeSyntheticMVarsNoPostponing
  let l ← unsafe evalExpr (List (Option (Bool × Nat))) (toTypeExpr (List (Option (Bool × Nat)))) (← instantiateMVars e)
  return toExpr l

def labelList : List (Option (Bool × Nat)) := labels% labelsOf parseBlock
theorem labelList_eq : labelsOf parseBlock = labelList := by kernel_rfl

/-- Every `tr` label is there. -/
theorem tr_there : (List.range 250).all (fun n => labelList.contains (some (true, n))) = true := by decide +kernel

/-- And so are the `f` labels that they use. -/
theorem f_there : (List.range 250).all (fun n =>
    match (Tables.trRow n).2 with
    | some f => labelList.contains (some (false, f))
    | none => true) = true := by decide +kernel

/-! ### The four labels of the loop -/

/-- The cases of `switch m.cs` (machine.go:157). -/
def firstSwitch : Stmts → Cases
  | .cons (.switch _ cs) _ => cs
  | .cons _ ss => firstSwitch ss
  | .nil => .nil
def resumeCases : Cases := cases% firstSwitch ((suffixAt parseBlock "_resume").getD .nil)
/-- What follows the switch: the `tr` and `f` labels, and the end of the loop. -/
def afterSwitch : Stmts := stmts% (match suffixAt parseBlock "_resume" with | some (.cons _ ss) => ss | _ => .nil)

/-- The cases of `switch _eofActions[m.cs]` (machine.go:4641). -/
def eofSwitch : Stmts → Cases
  | .cons (.if_ _ _ a _) _ => firstSwitch a
  | .cons _ ss => eofSwitch ss
  | .nil => .nil
def eofCases : Cases := cases% eofSwitch ((suffixAt parseBlock "_testEof").getD .nil)

/-- `_out: {}` (machine.go:5023) -/
def outStmts : Stmts := .cons (.block .nil) .nil

/-- From `_testEof` (machine.go:4637). -/
def eofStmts : Stmts :=
  .cons (.block .nil) (.cons (ifS (.bin .eq (mSel "p") (mSel "eof"))
    (.cons (.switch (.index (.id "_eofActions") (mSel "cs")) eofCases) .nil)) (.cons (.label "_out") outStmts))

/-- From `_again` (machine.go:4621). -/
def againStmts : Stmts :=
  .cons (.switch (.index (.id "_toStateActions") (mSel "cs")) (.case (.num 33) (actStmts .informalNidMatch) .nil))
    (.cons (ifS (.bin .eq (mSel "cs") (.num 0)) (.cons (.goto "_out") .nil))
      (.cons (.if_ (.cons (.inc (mSel "p")) .nil) (.bin .ne (mSel "p") (mSel "pe")) (.cons (.goto "_resume") .nil) .nil)
        (.cons (.label "_testEof") eofStmts)))

/-- From the beginning of the block (machine.go:150). -/
theorem parseBlock_eq : parseBlock =
    .cons (ifS (.bin .eq (mSel "p") (mSel "pe")) (.cons (.goto "_testEof") .nil))
      (.cons (ifS (.bin .eq (mSel "cs") (.num 0)) (.cons (.goto "_out") .nil))
        (.cons (.label "_resume") (.cons (.switch (mSel "cs") resumeCases) afterSwitch))) := by kernel_rfl

theorem suffix_resume : suffixAt parseBlock "_resume" = some (.cons (.switch (mSel "cs") resumeCases) afterSwitch) := by kernel_rfl
theorem suffix_again : suffixAt parseBlock "_again" = some againStmts := by kernel_rfl
theorem suffix_testEof : suffixAt parseBlock "_testEof" = some eofStmts := by kernel_rfl
theorem suffix_out : suffixAt parseBlock "_out" = some outStmts := by kernel_rfl

/-! ### The cases at the end of the input -/

/-- The numbers of the cases. -/
def caseNums : Cases → List Nat
  | .case (.num k) _ cs => k :: caseNums cs
  | _ => []

def eofOK : Cases → Bool
  | .nil => true
  | .case (.num k) body cs =>
      (match strip (actsStmts (Tables.eofActs k)) body with
       | some .nil => true
       | _ => false) && eofOK cs
  | _ => false

theorem eof_ok : eofOK eofCases = true := by decide +kernel

theorem eof_there : Tables.eofActions.all (fun k =>
    if k = 0 then noCase eofCases 0 else (caseNums eofCases).contains k) = true := by decide +kernel

/-! ### The states -/

/-- Decisions with numbers of `tr` labels. -/
inductive NTree where
  | tr (n : Nat)
  | ite (c : Cond) (a b : NTree)
  deriving Repr
deriving instance ToExpr for Cond
deriving instance ToExpr for NTree

def NTree.toTree : NTree → Tree
  | .tr n => .jump (trName n)
  | .ite c a b => .ite c a.toTree b.toTree

def ofTree : Tree → NTree
  | .jump l => match decode (codes l) with | some (true, n) => .tr n | _ => .tr 1000
  | .fall => .tr 1001
  | .ite c a b => .ite c (ofTree a) (ofTree b)

/-- `(m.data)[(m.p)]` -/
abbrev curExpr : Expr := .index (mSel "data") (mSel "p")

def treesOf : Cases → List (Nat × NTree)
  | .case (.num k) body cs =>
      match toTree curExpr body with
      | some t => if k = 0 then treesOf cs else (k, ofTree t) :: treesOf cs
      | none => []
  | _ => []

/-- The value of a term that is a list of trees. -/
elab "trees% " x:term : term => do
  let e ← elabTerm x (some (toTypeExpr (List (Nat × NTree))))
  synthesizeSyntheticMVarsNoPostponing
  let l ← unsafe evalExpr (List (Nat × NTree)) (toTypeExpr (List (Nat × NTree))) (← instantiateMVars e)
  return toExpr l

/-- The states other than 0, in the order of the text. -/
def stTrees : List (Nat × NTree) := trees% treesOf resumeCases

/-- The cases as trees. -/
def caseTrees : Cases → List (Nat × Option Tree)
  | .case (.num k) body cs => (k, toTree curExpr body) :: caseTrees cs
  | _ => []

theorem states_text : caseTrees resumeCases =
    (stTrees.take 1).map (fun x => (x.1, some x.2.toTree)) ++ (0, some (.jump "_out")) ::
    (stTrees.drop 1).map (fun x => (x.1, some x.2.toTree)) := by kernel_rfl

/-- A condition as a proposition about a byte. -/
def Cond.prop : Cond → UInt8 → Prop
  | .cmp .eq k, c => (c == UInt8.ofNat k) = true
  | .cmp .lt k, c => c < UInt8.ofNat k
  | .cmp .gt k, c => c > UInt8.ofNat k
  | .cmp .ge k, c => c ≥ UInt8.ofNat k
  | .and (.rcmp a .le) (.cmp .le b), c => (decide (UInt8.ofNat a ≤ c) && decide (c ≤ UInt8.ofNat b)) = true
  | _, _ => False

instance : (k : Cond) → (c : UInt8) → Decidable (k.prop c)
  | .cmp .eq k, c => inferInstanceAs (Decidable ((c == UInt8.ofNat k) = true))
  | .cmp .lt k, c => inferInstanceAs (Decidable (c < UInt8.ofNat k))
  | .cmp .gt k, c => inferInstanceAs (Decidable (c > UInt8.ofNat k))
  | .cmp .ge k, c => inferInstanceAs (Decidable (c ≥ UInt8.ofNat k))
  | .and (.rcmp a .le) (.cmp .le b), c =>
      inferInstanceAs (Decidable ((decide (UInt8.ofNat a ≤ c) && decide (c ≤ UInt8.ofNat b)) = true))
  | .cmp .or _, _ | .cmp .and _, _ | .cmp .ne _, _ | .cmp .le _, _ | .cmp .add _, _ | .cmp .sub _, _ => isFalse id
  | .rcmp _ _, _ => isFalse id
  | .and (.cmp _ _) _, _ | .and (.and _ _) _, _ => isFalse id
  | .and (.rcmp _ .or) _, _ | .and (.rcmp _ .and) _, _ | .and (.rcmp _ .eq) _, _ | .and (.rcmp _ .ne) _, _
  | .and (.rcmp _ .lt) _, _ | .and (.rcmp _ .gt) _, _ | .and (.rcmp _ .ge) _, _ | .and (.rcmp _ .add) _, _
  | .and (.rcmp _ .sub) _, _ => isFalse id
  | .and (.rcmp _ .le) (.rcmp _ _), _ | .and (.rcmp _ .le) (.and _ _), _ => isFalse id
  | .and (.rcmp _ .le) (.cmp .or _), _ | .and (.rcmp _ .le) (.cmp .and _), _ | .and (.rcmp _ .le) (.cmp .eq _), _
  | .and (.rcmp _ .le) (.cmp .ne _), _ | .and (.rcmp _ .le) (.cmp .lt _), _ | .and (.rcmp _ .le) (.cmp .gt _), _
  | .and (.rcmp _ .le) (.cmp .ge _), _ | .and (.rcmp _ .le) (.cmp .add _), _ | .and (.rcmp _ .le) (.cmp .sub _), _ => isFalse id

def NTree.eval : NTree → UInt8 → Nat
  | .tr n, _ => n
  | .ite k a b, c => if k.prop c then a.eval c else b.eval c

theorem states_model : (stTrees.map fun x => (x.1, fun c => x.2.eval c)) = (stTrees.map fun x => (x.1, fun c => Tables.trOf x.1 c)) := by
  kernel_rfl

end Urn.GoLang
