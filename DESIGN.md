# Design: a Lean 4 model of leodido/go-urn

`properties.jsonl` lists the properties, `MANIFEST.json` the theorems that prove them (regenerated by
`tools/manifest.py`; the theorems of property `Cnn` are those named `Cnn_*` in `lean/Verif/Props*.lean`).

## Layers

```
model of the code            reference         specification        properties
Go, Tables, Machine, Urn --> Ref         --> Spec, SpecErr,    --> Props*
Conc (memory accesses)                       SpecRfc, SpecTools
Regex, Tools
        Tab*, Run*, Main          Gram*, Lang*, Err*        Bridge, *Aux
```

| modules | contents | models |
|---|---|---|
| `Go` | bytes, slices, run time panics, runs with fuel, `strings.ToLower` | the pieces of Go and its library the code uses |
| `Tables` | generated by `tools/gen.py` | every `case`, `tr` label, `f` label, end-of-input case and the two action tables of `machine.go` |
| `Machine` | machine record, the actions, the loop step by step, `Parse`, `NewMachine`, `WithParsingMode`, `Error`, options | `machine.go`, `options.go`, `parsing_mode.go` |
| `Urn` | `URN`, `SCIM`, `URN8141`, `Kind`, `scim.Type`, their methods, JSON | `urn.go`, `scim.go`, `urn8141.go`, `kind.go`, `scim/schema/type.go` |
| `Json` | `json.Marshal` and `json.Unmarshal` on strings: escapes, UTF-8, surrogates, `null` | `encoding/json` (not part of go-urn) |
| `Ragel`, `Grammar` | the operators of Ragel; the grammar, line by line, and the parser it describes | `machine.go.rl` |
| `Word` | the parser with an `int` of `w` bits that wraps around | `machine.go` |
| `Cost` | the work of each step of the parser: rounds and bytes copied | `machine.go` |
| `Shared` | two goroutines that call methods of one machine | `machine.go` |
| `Heap` | pointers, nil, writes to fields, copies of structs | `urn.go`, `scim.go`, `urn8141.go`, `machine.go:112-120` |
| `GoSource` | the text of the files, made by `tools/source.py` | all `.go` files of the package |
| `GoSyntax`, `GoSem` | a lexer, a parser and an interpreter for the part of Go that the package uses | the language specification |
| `GoText` | the syntax trees of the files | proofs |
| `GoEval`, `GoTables`, `GoLabels`, `GoRep`, `GoActs`, `GoActs2`, `GoLoop`, `GoParse`, `GoApi`-`GoApi4`, `GoMono`, `GoSpecAux` | from the text to the model | proofs |
| `GoSpec` | what the theorems about the text say | |
| `GoClient` | clients of the package: Go functions and sequences of calls | |
| `GoCheck` | checks of the package: Go functions that return true | |
| `GoEndSpec`, `GoEndAux` | what a client of the text sees, in terms of the grammars | vocabulary and proofs of C74 |
| `GoTree` | the interpreter as a tree of accesses to memory | |
| `GoRace`, `GoRaceSpec`, `GoFieldSpec` | goroutines, schedules, races; which fields calls use; what is claimed about them | the memory model of Go, without synchronisation |
| `GoTreeRun`, `GoPart`, `GoRaceAux`, `GoRaceConv`, `GoRaceMask`, `GoRacePure`, `GoRaceRun`, `GoRaceWrite`, `GoRaceEnd`, `GoOrder`, `GoField`, `GoAssign`, `GoDoes` | goroutines that do not disturb each other, and those that do | proofs |
| `GoWrites`, `GoWritesAux`, `GoStuck`, `GoSlice` | when `Parse` writes to its input | proofs |
| `GoSliceSpec` | which bytes of its input a call writes to | vocabulary of C75 |
| `GoShareSpec` | goroutines that call methods of machines, and which calls mix | vocabulary of C76 |
| `GoShare` | the accesses of these calls | proofs |
| `GoLock` | goroutines that access one memory, with a lock held | the lock is the client's; vocabulary of C78 |
| `GoLockAux`, `GoLockMach`, `GoLockClient` | what they do, in the order in which they took the lock | proofs |
| `GoCheckFns`, `GoCheckRules`, `GoCheckCalls`, `GoCheckRun`…`GoCheckRun4` | runs of the checks | proofs |
| `ToolSource` | the text of the tools (generated by `tools/source.py`) | |
| `ToolSyntax`, `RegexRune`, `ToolSem` | lexer, parser, reader of regular expressions and interpreter for the part of Go that the tools are written in | `tools/removecomments`, `tools/snake2camel`, `regexp/syntax`, `regexp`, `os`, `fmt` |
| `ToolText`, `RegexText`, `RegexTextAux`, `RegexRuneAux`, `ToolChars`, `ToolRun`…`ToolRun3`, `ToolRuns`, `ToolMachine` | runs of the tools | proofs |
| `RlSource` | the text of machine.go.rl (generated by `tools/source.py`) | |
| `RlSyntax` | a reader of Ragel files | |
| `RlText`, `RlCamel`, `RlGo`, `RlSpec` | machine.go.rl read, and compared with `Grammar` and machine.go | proofs |
| `GoClientFns`, `GoClientSim`, `GoClientStep`, `GoClientRun` | from clients of the text to actions of `Heap` | proofs |
| `Locked` | goroutines that share a machine behind a mutex |
| `Conc` | `Parse` as a program that reads and writes single bytes of a common memory; interleavings | `machine.go`, several goroutines |
| `Regex`, `Tools` | leftmost-first matching; the two build tools and the steps they make on the file | `tools/removecomments`, `tools/snake2camel`, `regexp`, `os.WriteFile` |
| `Conformance` | generated by `tools/conformance.py`: the project's own test tables run on the model | tests of the model, not proofs |
| `Spec` | grammars, lexical equivalence, normal form | written from the RFCs, documentation and error messages, not from the automaton |
| `SpecErr` | what each kind of error says about the input | written from the error messages |
| `SpecRfc` | ABNF of RFC 3986, 8141, 2141, 7643, production by production | shares nothing with `Spec` but types |
| `SpecEquiv`, `EquivAux` | equivalence of URNs in RFC 2141 and RFC 8141 | vocabulary and proofs of C77 |
| `SpecJson` | the JSON texts of a string | written from RFC 8259 |
| `SpecTools` | comment lines, snake case, without regular expressions | written from the tools' documentation and tests |
| `Obs` | what a user of the package can observe | vocabulary of the theorems |
| `Ref` | a recursive descent parser with the exact error of each rejection | intermediate; appears in no property |
| `Fast`, `Tab*`, `Sim`, `Run*`, `Main` | the automaton computes `Ref`, for every mode and every input | proofs |
| `Gram*`, `Lang*`, `Err*`, `Hx*` | `Ref` accepts the grammars of `Spec`; where and with what it fails | proofs |
| `RagelCert`, `RagelCheck*`, `RagelSim` | the tables and the grammar go through the same states; the first is generated by `tools/ragelcert.py` | proofs |
| `*Aux`, `Bridge`, `CostTab`, `WriteInv`, `ConcSeq` | from the API to the grammars; buffers; interleavings | proofs |
| `Cases` | results of `Parse` on single inputs, a memory | used by the examples beside the theorems |
| `Props*` | the properties, with satisfiable instances beside them | `properties.jsonl` |

The parser is modelled at the level of the *generated* code (`machine.go`), not of the Ragel source: the labels
`_resume`, `_again`, `_test_eof`, `_out` are the control states; the cursors `p`, `pb`, `pe`, `eof` are integers; the
buffer is mutable; every index, slice expression and pointer dereference can panic; the loop may diverge (fuel).
The tables are produced mechanically so that no transition is idealised; `tools/gen.py --check` regenerates and
compares.

## How each property is proved

The central theorem is `parse_ref` (`Main`): for every machine that can be made and every input, `Parse` ends without
panic, with the buffer restored, and returns what `Ref` says.  It rests on table lemmas checked by the kernel for all
256 bytes in each state (the whole finite table), lifted to all inputs by induction over the input (`Sim`, `Run*`).
`Gram*` and `Lang*` then show by induction that `Ref` accepts the grammars of `Spec`.

* C01, C02, C03: directly from the run theorem, for all parsing-mode values and option lists.  C02 counts steps.
* C04-C07, C09-C15, C26, C34-C36, C42, C43: from the language and result theorems of each mode.
* C08, C16-C20, C40, C41, C47: `Normalize` and `Equal` as functions, on parsed URNs via the normal form lemma.
  `strings.ToLower` on non-ASCII text is a parameter; theorems hold for every function in its place.
* C21, C22: the exact set of inputs for which `nil, nil` is returned.
* C23-C25, C44, C45: induction over lists of operations on a machine (`Reachable` in `Obs`).
* C27-C31: the JSON codec is a parameter with the hypothesis `JsonOk` (decoding inverts encoding on strings of visible
  ASCII characters); `Json.codec_ok` shows that the model of `encoding/json` meets it.
* C54: with that model; `JsonAux` proves that it decodes exactly the texts of `SpecJson` to a given ASCII string, by
  induction over the text, and that decoding after encoding is the identity on ASCII and maps nothing else to ASCII.
* C32, C33, C37, C46: position and kind of every error, against viable prefixes and `SpecErr`.
  `C33_exact_8141` (`PropsColumn`, proofs in `ErrExact`) determines the column in RFC 8141 mode from the text alone.
* C38, C39: each byte access is an atomic action (`Conc`).  `ConcSeq` proves that a call alone does what `Machine.parse`
  says; `ConcAux` has the invariant for arbitrary interleavings of any number of calls; `WriteAux` and `WriteInv` give the
  exact writes.
* C48-C50: the languages compared with the ABNF transcriptions.
* C51-C53: matching of the two regular expressions reduced to lines, termination by the number of underscores, file
  contents after each prefix of the steps.
* C55: `Ragel` defines the automaton of an expression (states are the places where a character has been read, with the
  actions and priorities of each transition).  `RagelCert` lists which of its (sets of) states belong to which state of
  `machine.go`; the kernel checks for each of these 480 pairs and each class of bytes that the transitions lead to pairs
  again and have the same actions in the same order, and the same for errors, the end of the input, final states and
  to-state actions (`RagelCheck*`).  `RagelSim` follows the two parsers step by step, for all inputs.
* C56: `Word` wraps each sum and difference of `Parse` to `w` bits.  An invariant of the loop bounds the cursors, so
  wrapping changes nothing; the `m.p + 3` of `throw_pre_urn_err` needs that the five states of the scheme are reached
  after a fixed number of bytes.
* C57: `Shared` interleaves the steps of two calls.  Without overlap the run is the sequential one (each call ends after
  some number of steps, further steps change nothing).  With overlap the property is false; concrete schedules show how.
* C58: `Heap` has objects and pointers; an action follows pointers and panics with nil.  By cases on the action; an
  invariant says that pointers that a program has are valid.
* C59: a frame lemma: an action changes only what can be reached from the pointers that it is given, and gives back only
  pointers to that or to new objects; by induction over the actions of a client.
* C60: an invariant of memories, kept by each action; arbitrary options reduce to the three modes because an unknown mode
  leaves the entry point and, but for RFC 8141 mode, the flag that matters for the result.
* C61: each action of `Heap` is compared with the function of `Urn` on the values behind the pointers.
* C62: `Locked.lean` has any number of goroutines and a lock; the invariant says that the calls that have returned
  are a sequence of calls on the machine and that the one in progress ends, undisturbed, in a bounded number of steps.
* C63-C66: `GoSource` is the text of the files.  The kernel evaluates the lexer and the parser of `GoSyntax` on it, which
  gives the syntax trees of all functions (`GoText`).  The trees of the cases, labels and end actions of `Parse` are
  compared with `Tables` (`GoTables`, `GoLabels`, by evaluation in the kernel); that the interpreter of `GoSem` does what
  the model does is proved for each action, then for the loop, `Parse`, and each function and method (`GoActs` to `GoApi4`).
  `GoMono` shows that the interpreter's bound on calls and jumps does not matter.
  The interpreter's `int` has 32 or 64 bits and wraps around (`Ext.bits`), so the text is compared with `Word`, which by C56
  is what `Machine` says for every slice whose length is an `int` (`Ext.Fits`; for `UnmarshalJSON`, `Ext.FitsJson`: the length of the
  string in the JSON text, which may be longer than the text, since a byte that is not UTF-8 becomes three bytes).
* C67: `GoClient` has the text of one Go function for each thing that a client can do.  `GoClientFns` runs each of them,
  `GoClientSim` relates the memory of the interpreter with that of `Heap` (the objects of the model are at different
  addresses, structs have the same fields, pointers to SCIM structs point to the same ones), `GoClientStep` shows that each
  call keeps this relation and returns what the action of `Heap` returns, `GoClientRun` does the induction over the calls.
* C68: `RlSource` has the text of machine.go.rl.  `RlSyntax` reads it: it finds the blocks, reads their statements, and
  replaces names in expressions.  `RlText` evaluates this in the kernel and compares with `Grammar` and with the statements
  of the actions in machine.go (with `fgoto` and `fhold` replaced as Ragel does).  `RlCamel` and `RlGo` do snake2camel on the rest
  of the file, read it as Go and compare the declarations with those of machine.go.
* C69: `GoCheck` has the text of the checks, `GoCheckFns` reads it.  `GoCheckRules` has one rule for each kind of expression and
  statement in them (`Ev`: an expression has these values and leaves this memory), `GoCheckCalls` the rules for calls of the
  package, which are C63-C66.  `GoCheckRun`, …, `GoCheckRun4` derive each check with these rules from the property it is about.
* C70: `ToolText` reads the text of the tools, `ToolRun`…`ToolRun3` run it symbolically, function by function, with the loops by
  induction; `RegexTextAux` shows that the regular expressions that are read match what those of `Tools` match, and that the
  places of groups give the texts of groups.  `RegexRuneAux` shows that these expressions match the same on runes and on bytes:
  the ways to match on bytes are those on runes and others that end within a rune, and these are never preferred.  `ToolMachine`
  scans the text of machine.go.
* C71: an ASCII byte of an encoding is a character by itself; lines end with such a byte, and the underscores that are removed
  and the letters that are changed are such bytes.
* C72: `Cost` adds to each step of `Machine` the number of bytes it copies.  A ranking of the states (`CostTab`, checked by the
  kernel for all transitions) goes down with every copy, except with those of `set_r_component` at a question mark, of which
  there are as many as question marks; `CostAux` turns this into the bounds by induction over the run, and follows the run
  on a family of texts for the lower bound.  The jumps of the text are bounded by the fuel with which C63 is proved.
* C73: `GoTree` is the interpreter of `GoSem` once more, but it makes a tree of reads, writes and allocations, and `GoTreeRun` proves
  that running the tree gives what the interpreter gives.  `GoRace` runs several trees under a schedule.  `GoRaceAux` shows by an
  invariant that goroutines whose accesses, alone, are not in conflict do not disturb each other; `GoRaceConv` shows the
  converse by two runs one after the other.  What a call accesses is found without looking at its steps: the theorems of C64-C69
  hold for all memories, so also for one in which all but the arguments, or all but the bytes of a slice, is hidden (`GoRaceMask`), and for a memory with only what
  can be reached (`GoRaceRun`).  What a call writes is found by a check of the text for assignments through pointers (`GoRacePure`,
  `GoRaceWrite`).  For the races (`GoOrder`): a goroutine whose accesses do not meet the writes of another one finds the same values in all
  that it accesses, so its result is the same before and after; if it is not the same, they meet.
  Which fields the methods of a URN read is found by going through their text (`GoField`).  A race with an assignment (C73_assign) needs no change of memory: the
  text writes to the field whatever the value is (`GoAssign`).  Which fields calls read in any case is found in the same way (`GoDoes`).
* C74: C63 and C67 say what the text does in terms of the model, C05-C17, C46 and C54 what the model does in terms of the
  grammars.  C74 composes them, so that no model is left in the statements.
  `C74_column` says which column every message has, by C33.
* C75: the interpreter knows arrays with one byte that may be read but not written to (`Cell.rom`); a write to it is stuck.  The
  simulation of C64 is proved for such an input too: if the model does not write to the byte, the text is done (`GoActs`-`GoApi2`), and
  if it does, the text is stuck (`GoStuck`).  So which bytes the text writes to is found by comparing the run with the runs on memories in
  which one byte is locked (`GoSlice`).  That an accepted text is accessed everywhere: otherwise it would be accepted with a zero byte in
  it, against C34.
* C76: as C75, for calls on machines that are there already.  The accesses of `Error` and `WithParsingMode` are found by running
  them, and so are the first ones of `Parse`.
* C77: C48-C50 and C17, carried over to the text by C64 and C74.  That the parts of a namestring are unique up to the end of the NSS makes
  the equivalence of RFC 8141 a question about them.
* C78: what holds whatever goroutines do is by induction over the schedule.  That the fuel of the interpreter suffices in every order, and that all
  get done, is by induction over what there is to do, with the largest bound over the goroutines that can be next.  What a single call does is C63 and C67.

No property was found that cannot be expressed in the model.

## Where the code disagrees with what one may expect

Each has a theorem `*_refuted` with a concrete witness, and the exact statement that holds instead.

| property | disagreement |
|---|---|
| C05, C42, C43, C49 | RFC 2141 mode rejects URNs with `u`/`U` at index 4 and `:` at index 7 (a NID such as `uci`), because the look-ahead for a second `urn:` fires too early |
| C14 | in RFC 8141 mode an empty fragment (`#` at the end) is dropped, and a NID beginning `urn-` overwrites the prefix with its own first letters |
| C19 | `Normalize` is not idempotent: it drops the private normal form |
| C20 | SCIM and RFC 2141 results of the same text are not `Equal` |
| C21, C22, C30 | RFC 8141 mode returns `nil, nil` (and `Parse` returns `nil, true`) for a set of malformed inputs; JSON decoding then yields a value without URN |
| C38 | parsing the same buffer concurrently is unsafe if it has an escape with an upper case letter: `Parse` writes to it |
| C44, C45 | the zero mode is not the default mode; an unknown mode keeps the automaton and changes the flags |
| C47 | `Equal` ignores `SS` of values that were not parsed, or whose `SS` was assigned |
| C48 | NIDs beginning `urn-` (as the RFC wants) and some `?+`, `?=` inside components are rejected |
| C48-C50, C77 | escapes are `%` and two alphanumerics, not only hexadecimal digits |
| C50 | `urn:IETF:…` is rejected, and names with other characters than letters and digits |
| C51 | blank lines before a `//line` comment are removed too |
| C52 | `a_b` and `aB` become the same name |
| C53 | an interrupted tool can leave neither the old file nor the new one |
| C54 | `UnmarshalJSON` of `null` is an error; the convention of `encoding/json` is that it does nothing |
| C57, C76 | calls on one machine that overlap race, mix their inputs, fail, or panic |
| C58 | `Parse` can return a nil pointer with `true`, and the next method call panics |
| C72 | in RFC 8141 mode the work is quadratic: in an r-component the generated code runs `set_r_component`, a copy of all of it so far, at each `?` |
| C73, C75 | two goroutines that call `Parse` with the same slice race, in the text as in the model (C38); C75 says for which texts |
| C59 | a copy of a URN shares its SCIM struct; decoding into that struct makes it disagree with the URN |

## Trusted base

* Lean's kernel.  Every theorem depends on no axioms but `propext`, `Classical.choice` and `Quot.sound` (`vcheck` and
  `#print axioms`).  There is no `sorry`, no `native_decide`, no `bv_decide`.
* The reading of Go written into `Go`, `Machine`, `Urn`, `Conc`, `Shared`, `Heap`, `Regex`, `Tools`: each definition cites the lines it
  models and says where it simplifies.
* For C63-C67, C69 and C73-C78 the reading of Go is instead that of `GoSyntax` and `GoSem`, a lexer, a parser and an interpreter that do
  not know the program; the head of `GoSem` lists the simplifications.  These theorems say that the interpreted text and the
  hand-written model agree, so a slip in the translation by hand (or in `tools/gen.py`) would have to be made in both.  What
  remains outside is the equality of `GoSource` with /repo, which `tools/source.py --check` compares.
* For C73, C75 and C76 also `GoRace`: accesses are to a whole struct, to a field of a struct, or to some bytes of an array, and goroutines do not synchronise.
  A copy of a struct is one access to all of it, a conversion of a slice to a string one access to its bytes.  Memory that a goroutine makes
  is its own: without a race no other goroutine gets its address.
* For C70 and C71 likewise `ToolSyntax`, `RegexRune` and `ToolSem`; the operating system is any function that says what can be read
  and what can be written (`Sys`).
* For C55, the reading of the Ragel guide written into `Ragel`; there is no copy of Ragel here to compare with.  What it
  does by minimisation and by `shiftStartActionOrder` is not modelled; the theorem shows that nothing of that is visible.
  By C68 the expressions of `Grammar` are what the text of machine.go.rl says under the reading of `RlSyntax`: precedence of
  operators, builtin machines, and Ragel's replacement of `fgoto` and `fhold` in actions; `tools/source.py --check` compares
  `RlSource` with the file.
* `tools/gen.py`, which translates the generated part of `machine.go` (the rest is written by hand).  The output cites
  the lines of every table entry, and `Conformance` runs the project's test tables on the result.

## Modelled

* `machine.go`: all of it; `NewMachine`, `Err`/`Error`, `Parse`, `WithParsingMode`, the error texts.
* `urn.go`, `urn8141.go`, `scim.go`, `kind.go`, `options.go`, `parsing_mode.go`, `scim/schema/type.go`: all functions.
* `machine.go.rl`: all of its text (C68).
* `tools/removecomments`, `tools/snake2camel`: all of their text (C70), and the way the file is rewritten (C53).

## Not modelled

* Go's memory allocator and garbage collector.
* `strings.ToLower` and `unicode` on non-ASCII texts: an arbitrary function.
* `encoding/json` on anything but strings and `null`: other JSON values fail to decode into a string; why is not modelled.
* `fmt.Errorf`: its result is the text that the format produces.
* Go's memory model for programs with data races.  Interleavings of atomic byte accesses are all the behaviours there are
  when there is no race, which is the case in C38 where independence is claimed (disjoint buffers, or no write at all);
  where calls race the theorem is a refutation, for which one interleaving is enough.
* Concurrent calls of methods of one machine are interleaved at the steps of the loop (`Shared`), not at single memory
  accesses; Go's memory model gives racy programs fewer guarantees still.
* Permissions of the files that the tools write (`os.WriteFile` uses them only when it creates a file; this one was just read).
* `docs/urn.dot`: a drawing of an automaton of an older version of the grammar (it has no RFC 8141 part); nothing uses it.

## Tests against wrong programs

`seeded/LOG.jsonl` has a line for each wrong program that was tried: the edit, the claim it breaks, the theorems that
failed.  They are run in a copy outside of this directory: the edit is applied, everything is rebuilt, and each theorem
that fails is replaced by its statement, to see which of the others fail by themselves.
