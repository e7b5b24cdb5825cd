import Verif.Regex
/-!
# The tools that post-process the generated parser

`/repo/tools/removecomments` and `/repo/tools/snake2camel`; the makefile runs them, in this order, on
machine.go after Ragel wrote it.
-/
set_option autoImplicit false
namespace Urn.Tools
open Regex

/-- `.` without the flag `s`: everything but a newline. -/
def dot (c : UInt8) : Bool := c != 10
/-- `\s`: tab, newline, form feed, carriage return, space. -/
def space (c : UInt8) : Bool := c == 9 || c == 10 || c == 12 || c == 13 || c == 32
/-- `[a-z]` -/
def lowerCase (c : UInt8) : Bool := 97 ≤ c && c ≤ 122
/-- `[0-9]` -/
def digit (c : UInt8) : Bool := 48 ≤ c && c ≤ 57
/-- `[a-zA-Z0-9]` -/
def alnum (c : UInt8) : Bool := lowerCase c || (65 ≤ c && c ≤ 90) || digit c

/-! ## removecomments -/

/-- tools/removecomments/removecomments.go:23: `(?m)^\s*//line.*$\r?\n?` -/
def commentLineRegex : Re :=
  .seq .bol (.seq (.star space) (.seq (Re.text (lit "//line")) (.seq (.star dot) (.seq .eol
    (.seq (.opt fun c => c == 13) (.opt fun c => c == 10))))))

/-- tools/removecomments/removecomments.go:25-27 `func removeComments(src []byte) []byte`:
`ReplaceAllLiteral` with the empty text copies the text skipped before each match, and the text that follows
the last one. -/
def removeComments (src : Bytes) : Bytes :=
  let y := commentLineRegex.findAll (src.length + 1) none src
  y.1.flatMap (fun x => x.1) ++ y.2

/-! ## snake2camel -/

/-- tools/snake2camel/snake2camel.go:38: `(.*)([a-z]+[0-9]*)_([a-zA-Z0-9])(.*)` -/
def snakeRegex : Re :=
  .seq (.cap (.star dot)) (.seq (.cap (.seq (Re.plus lowerCase) (.star digit))) (.seq (Re.text (lit "_"))
    (.seq (.cap (.cls alnum)) (.cap (.star dot)))))

/-- `strings.ToUpper` on ASCII texts (the only ones it is applied to: the third group). -/
def toUpper (w : Bytes) : Bytes := w.map fun c => if lowerCase c then c - 32 else c

/-- The elements of Go's `groups` (index 0 is the whole match; indexing beyond the end would panic, all
groups of the expression are always there). -/
def group (x : Found) : Nat → Bytes
  | 0 => x.text
  | n + 1 => x.groups[n]?.getD []

/-- tools/snake2camel/snake2camel.go:43-45, the function literal -/
def repl (x : Found) : Bytes := group x 1 ++ group x 2 ++ toUpper (group x 3) ++ group x 4

/-- tools/snake2camel/snake2camel.go:16-35 `replaceAllStringSubmatchFunc`: the new text and `lastIndex`, the
index where the last match ends. -/
def replaceAllStringSubmatchFunc (re : Re) (str : Bytes) (repl : Found → Bytes) : Bytes × Nat :=
  let y := re.findAll (str.length + 1) none str
  (y.1.flatMap (fun x => x.1 ++ repl x.2) ++ y.2, if y.1 = [] then 0 else str.length - y.2.length)

/-- tools/snake2camel/snake2camel.go:42-46, the loop (`last != 0` is tested before each round). -/
def snakeLoop : Nat → Bytes → Int → Run Bytes
  | 0, _, _ => .diverge
  | fuel + 1, res, last =>
      if last ≠ 0 then
        let y := replaceAllStringSubmatchFunc snakeRegex res repl
        snakeLoop fuel y.1 y.2
      else .ok res

/-- tools/snake2camel/snake2camel.go:37-49 `func snake2camel(content []byte) []byte`, with a bound on the number
of rounds. -/
def snake2camel (fuel : Nat) (content : Bytes) : Run Bytes := snakeLoop fuel content (-1)

/-! ## The files -/

/-- What the operating system does to the file, one step at a time. -/
inductive FileOp where
  /-- `open` with `O_TRUNC` (and `O_CREATE`) -/
  | truncate
  /-- `write` of some bytes -/
  | write (w : Bytes)
  deriving DecidableEq, Repr

/-- The contents of the file after a step. -/
def FileOp.apply : FileOp → Bytes → Bytes
  | .truncate, _ => []
  | .write w, f => f ++ w

/-- `os.WriteFile(path, data, 0)`: opens the file truncating it, then writes; the operating system may take the
data in any number of pieces. -/
def WriteFile (data : Bytes) (ops : List FileOp) : Prop :=
  ∃ pieces : List Bytes, pieces.flatten = data ∧ ops = .truncate :: pieces.map .write

/-- The steps that a run of tools/…/removecomments.go:29-36 or snake2camel.go:51-59 makes on a file with contents
`old`: reads all of it, then writes all of it.  `tool` is `removeComments` or `snake2camel`. -/
def Rewrites (tool : Bytes → Run Bytes) (old : Bytes) (ops : List FileOp) : Prop :=
  ∃ new, tool old = .ok new ∧ WriteFile new ops

/-- The contents of a file after some steps. -/
def contents (old : Bytes) (ops : List FileOp) : Bytes := ops.foldl (fun f o => o.apply f) old

end Urn.Tools
