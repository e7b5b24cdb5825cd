import Verif.ToolMachine
import Verif.ToolRuns
/-!
# Properties of the text of the tools
-/
set_option autoImplicit false
set_option linter.unusedSimpArgs false
namespace Urn.ToolLang
open SpecTools Tools

/-! ## C70: the text of the tools -/

/-- Run in the same way a program does the same. -/
theorem C70_deterministic {ls : List String} {S : Sys} {c c' : Int} {w w' : List Event} (h : Runs ls S c w)
    (h' : Runs ls S c' w') : c = c' ∧ w = w' := by
  obtain ⟨N, h⟩ := h
  obtain ⟨M, h'⟩ := h'
  have := (h (N + M) (by omega)).symm.trans (h' (N + M) (by omega))
  injection this with this
  exact ⟨congrArg Prod.fst this, congrArg Prod.snd this⟩

/-- Called with no path, or with more than one, each tool prints what is wrong, exits with 1 and touches no file. -/
theorem C70_usage {S : Sys} (h : S.args.length ≠ 2) {tool : List String} (ht : tool = removecomments ∨ tool = snake2camelTool) :
    Runs tool S 1 [errorLine (lit "must be called with the file path as the only argument")] := by
  have : ∀ out, mainRun S out = (1, [errorLine (lit "must be called with the file path as the only argument")]) := by
    intro out
    unfold mainRun
    split
    · rename_i e; rw [e] at h; exact absurd rfl h
    · rfl
  rcases ht with rfl | rfl
  · have h := rc_runs S; rwa [this] at h
  · have h := sc_runs S; rwa [this] at h

example : ({ args := [lit "snake2camel"], read := fun _ => .ok [], write := fun _ _ => none } : Sys).args.length ≠ 2 := by decide

/-- If the file cannot be read each tool prints the error, exits with 1 and writes nothing. -/
theorem C70_read_error {S : Sys} {prog p e : Bytes} (h : S.args = [prog, p]) (hr : S.read p = .error e) {tool : List String}
    (ht : tool = removecomments ∨ tool = snake2camelTool) : Runs tool S 1 [.readFile p, errorLine e] := by
  have : ∀ out, mainRun S out = (1, [.readFile p, errorLine e]) := by
    intro out
    simp only [mainRun, h, fileRun, hr, errorLine_eq, List.cons_append, List.nil_append]
  rcases ht with rfl | rfl
  · have h := rc_runs S; rwa [this] at h
  · have h := sc_runs S; rwa [this] at h

example : ({ args := [lit "t", lit "x.go"], read := fun _ => .error (lit "no such file"), write := fun _ _ => none } : Sys).read (lit "x.go") =
    .error (lit "no such file") := rfl

/-- The text of removecomments, run on a file: it reads the file once, writes the same file once, and the lines of what it
writes are the lines of the file without the `//line` comments and the blank lines directly before them.  It exits with 0 if
the write succeeds; else it prints the error and exits with 1. -/
theorem C70_removecomments {S : Sys} {prog p c : Bytes} (h : S.args = [prog, p]) (hr : S.read p = .ok c) :
    ∃ d, lines d = kept (lines c) ∧
      (S.write p d = none → Runs removecomments S 0 [.readFile p, .writeFile p d]) ∧
      ∀ e, S.write p d = some e → Runs removecomments S 1 [.readFile p, .writeFile p d, errorLine e] := by
  refine ⟨removeComments c, C51_exact c, fun hw => ?_, fun e hw => ?_⟩
  all_goals
    have := rc_runs S
    simpa [mainRun, h, fileRun, hr, hw, errorLine_eq] using this

example := C70_removecomments (S := oneFile (lit "t") (lit "a.go") (lit "// x\ngoto st1")) rfl rfl

/-- The text of snake2camel, run on a file: it reads the file once, writes the same file once, and what it writes is, line by
line, the file with underscores between a lower case letter (then maybe digits) and a letter or digit removed, the last one
first, until there is none. -/
theorem C70_snake2camel {S : Sys} {prog p c : Bytes} (h : S.args = [prog, p]) (hr : S.read p = .ok c) :
    ∃ d, Linewise (fun l l' => Steps l l' ∧ ¬ HasSnake l') (lines c) (lines d) ∧
      (S.write p d = none → Runs snake2camelTool S 0 [.readFile p, .writeFile p d]) ∧
      ∀ e, S.write p d = some e → Runs snake2camelTool S 1 [.readFile p, .writeFile p d, errorLine e] := by
  refine ⟨camel c, camel_spec c, fun hw => ?_, fun e hw => ?_⟩
  all_goals
    have := sc_runs S
    simpa [mainRun, h, fileRun, hr, hw, errorLine_eq] using this

example : (oneFile (lit "t") (lit "a.go") (lit "goto st_case_1")).read (lit "a.go") = .ok (lit "goto st_case_1") := rfl

/-- The makefile runs removecomments on the generated parser, then snake2camel.  Whatever the file was, what is in it then
has no `//line` comments and no snake case names, and running both again leaves it as it is. -/
theorem C70_pipeline {a b p t u v : Bytes} (h1 : Runs removecomments (oneFile a p t) 0 [.readFile p, .writeFile p u])
    (h2 : Runs snake2camelTool (oneFile b p u) 0 [.readFile p, .writeFile p v]) :
    (∀ l ∈ lines v, isComment l = false) ∧ ¬ HasSnake v ∧
      Runs removecomments (oneFile a p v) 0 [.readFile p, .writeFile p v] ∧
      Runs snake2camelTool (oneFile b p v) 0 [.readFile p, .writeFile p v] := by
  have e1 : u = removeComments t := by have := (C70_deterministic h1 removecomments_file).2; simpa using this
  have e2 : v = camel u := by have := (C70_deterministic h2 snake2camel_file).2; simpa using this
  subst e1
  subst e2
  have hp := C52_pipeline (g := (camel (removeComments t)).count 95 + 2) (s := camel (camel (removeComments t)))
    (camel_eq (t := removeComments t) (Nat.le_refl _))
  refine ⟨hp.1, hp.2.1, ?_, ?_⟩
  · have := removecomments_file (prog := a) (p := p) (c := camel (removeComments t))
    rwa [hp.2.2.1] at this
  · have := snake2camel_file (prog := b) (p := p) (c := camel (removeComments t))
    rwa [hp.2.2.2 (by rw [hp.2.2.1]; exact camel_eq (Nat.le_refl _))] at this

example : ∃ u v, Runs removecomments (oneFile (lit "rc") (lit "machine.go") (lit "//line x\ngoto st_1\n")) 0
    [.readFile (lit "machine.go"), .writeFile (lit "machine.go") u] ∧
    Runs snake2camelTool (oneFile (lit "sc") (lit "machine.go") u) 0
      [.readFile (lit "machine.go"), .writeFile (lit "machine.go") v] ∧ v = lit "goto st1\n" := by
  refine ⟨_, _, removecomments_file, snake2camel_file, ?_⟩
  have h : snake2camel 9 (removeComments (lit "//line x\ngoto st_1\n")) = .ok (lit "goto st1\n") := by
    rw [removeComments_eq]; decide +kernel
  exact C52_fuel (camel_eq (Nat.le_refl _)) h

/-- The file machine.go of the repository is one that the two tools leave as it is. -/
theorem C70_machine (a b p : Bytes) :
    Runs removecomments (oneFile a p (fileText GoSource.machineGo.flatten)) 0
      [.readFile p, .writeFile p (fileText GoSource.machineGo.flatten)] ∧
    Runs snake2camelTool (oneFile b p (fileText GoSource.machineGo.flatten)) 0
      [.readFile p, .writeFile p (fileText GoSource.machineGo.flatten)] := by
  have hl := machine_same
  refine ⟨?_, ?_⟩
  · have := removecomments_file (prog := a) (p := p) (c := fileText GoSource.machineGo.flatten)
    rwa [C51_unchanged hl.1] at this
  · have := snake2camel_file (prog := b) (p := p) (c := fileText GoSource.machineGo.flatten)
    rwa [C52_unchanged hl.2 (camel_eq (Nat.le_refl _))] at this

end Urn.ToolLang
