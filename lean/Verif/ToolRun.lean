import Verif.ToolText
/-!
# What the text of the tools does: removecomments
-/
set_option autoImplicit false
set_option linter.unusedSimpArgs false
namespace Urn.ToolLang
open GoLang (bytesOf)
open Regex Tools

/-- The text that `exitWithError` writes. -/
def errorText (msg : Bytes) : Bytes := lit "error: " ++ msg ++ [10, 10]

theorem sprintf_error (m : Bytes) :
    sprintf (bytesOf [101, 114, 114, 111, 114, 58, 32, 37, 115, 10]) [.str m] = some (lit "error: " ++ m ++ [10]) := by
  simp [bytesOf, sprintf, lit]

theorem exit_run (P : Prog) (S : Sys) (n : Nat) (m : Bytes) (w : List Event) :
    callN P S (n + 1) [("msg", .str m)] rcExit.body w = .exit 1 (w ++ [.stderr (errorText m)]) := by
  simp [callN, rcExit, execs, exec, evals, eval, lookup, GoLang.get, isExt, extVar, extCall, sprintf_error, errorText]

theorem scExit_body : scExit.body = rcExit.body := rfl

theorem rcRemove_run (S : Sys) (n : Nat) (b : Bytes) (w : List Event) :
    callN rcProg S (n + 1) [("src", .bytes b)] rcRemoveComments.body w = .ok ([.bytes (removeComments b)], w) := by
  simp [callN, rcRemoveComments, execs, exec, evals, eval, lookup, GoLang.get, isExt, method, rcProg, bytesOf, comment_replace]

/-- What a tool does to a file, if `out` is the result on its contents: the error, if there is one, and the events. -/
def fileRun (S : Sys) (p : Bytes) (out : Bytes → Bytes) : Option Bytes × List Event :=
  match S.read p with
  | .error e => (some e, [.readFile p])
  | .ok c => (S.write p (out c), [.readFile p, .writeFile p (out c)])

def errVal : Option Bytes → Val
  | none => .nil
  | some e => .err e

theorem rcFile_run (S : Sys) (n : Nat) (p : Bytes) (w : List Event) :
    callN rcProg S (n + 2) [("path", .str p)] rcFile.body w =
      .ok ([errVal (fileRun S p removeComments).1], w ++ (fileRun S p removeComments).2) := by
  cases h : S.read p with
  | error e =>
    rw [callN]
    simp [rcFile, execs, exec, evals, eval, lookup, GoLang.get, isExt, extCall, h, binVal, one, inScope, fileRun, errVal,
      show GoLang.get "nil" rcProg.vars = none from rfl]
  | ok c =>
    have hf : findFn rcProg "removeComments" = some rcRemoveComments := rfl
    have hr := rcRemove_run S n c
    have hp : rcRemoveComments.params = ["src"] := rfl
    cases hw : S.write p (removeComments c) <;>
    · rw [callN]
      simp [rcFile, execs, exec, evals, eval, lookup, GoLang.get, isExt, extCall, h, binVal, one, inScope, fileRun, errVal, callName, builtin, hf,
        hp, bindParams, hr, hw, show GoLang.get "nil" rcProg.vars = none from rfl]

/-- What a tool does when it is run: the exit code and the events. -/
def mainRun (S : Sys) (out : Bytes → Bytes) : Int × List Event :=
  match S.args with
  | [_, p] =>
      match fileRun S p out with
      | (none, w) => (0, w)
      | (some e, w) => (1, w ++ [.stderr (errorText e)])
  | _ => (1, [.stderr (errorText (lit "must be called with the file path as the only argument"))])

theorem must_text : bytesOf [109, 117, 115, 116, 32, 98, 101, 32, 99, 97, 108, 108, 101, 100, 32, 119, 105, 116, 104, 32, 116,
    104, 101, 32, 102, 105, 108, 101, 32, 112, 97, 116, 104, 32, 97, 115, 32, 116, 104, 101, 32, 111, 110, 108, 121, 32, 97, 114,
    103, 117, 109, 101, 110, 116] = lit "must be called with the file path as the only argument" := rfl

/-- The exit code and the events of a run of `main`. -/
def exitOf : Res (List Val × List Event) → Res (Int × List Event)
  | .ok (_, w) => .ok (0, w)
  | .exit c w => .ok (c, w)
  | .panic => .panic
  | .stuck => .stuck
  | .more => .more

theorem rcMain_run (S : Sys) (n : Nat) :
    exitOf (callN rcProg S (n + 3) [] rcMain.body []) = .ok (mainRun S removeComments) := by
  have hx : findFn rcProg "exitWithError" = some rcExit := rfl
  have hxp : rcExit.params = ["msg"] := rfl
  have hf : findFn rcProg "removeCommentsFromFile" = some rcFile := rfl
  have hfp : rcFile.params = ["path"] := rfl
  have hn : GoLang.get "nil" rcProg.vars = none := rfl
  have main (l : Nat) (h : S.args.length = l) (hl : l ≠ 2) : exitOf (callN rcProg S (n + 3) [] rcMain.body []) =
      .ok (1, [.stderr (errorText (lit "must be called with the file path as the only argument"))]) := by
    rw [callN]
    have hl' : ¬ (l : Int) = 2 := by omega
    simp [rcMain, execs, exec, evals, eval, lookup, GoLang.get, isExt, extVar, extCall, binVal, one, inScope, callName, builtin,
      len, append, string, lenVal, h, hl', hx, hxp, bindParams, exit_run, must_text, exitOf]
  match ha : S.args with
  | [] => rw [main 0 (by rw [ha]; rfl) (by omega)]; simp [mainRun, ha]
  | [a] => rw [main 1 (by rw [ha]; rfl) (by omega)]; simp [mainRun, ha]
  | a :: b :: c :: d => rw [main (d.length + 3) (by rw [ha]; rfl) (by omega)]; simp [mainRun, ha]
  | [a, p] =>
    rw [callN]
    cases hr : (fileRun S p removeComments).1 <;>
    simp [rcMain, execs, exec, evals, eval, lookup, GoLang.get, isExt, extVar, extCall, binVal, one, inScope, callName, builtin,
      len, append, string, lenVal, ha, hx, hxp, bindParams, exit_run, must_text, exitOf, indexVal, hf, hfp, rcFile_run, hr, errVal, hn, method,
      mainRun]
    all_goals (revert hr; generalize fileRun S p removeComments = x; intro hr; obtain ⟨y, z⟩ := x; simp only at hr; subst hr; rfl)

end Urn.ToolLang
