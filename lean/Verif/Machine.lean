import Verif.Types
import Verif.Tables
/-!
# The automaton: machine.go, options.go, parsing_mode.go

The generated code is a loop over four program labels; `step` executes the code between two
labels.  All array accesses, slice expressions and pointer dereferences can panic.
-/
set_option autoImplicit false
namespace Urn
open Tables

/-- parsing_mode.go:3 `type ParsingMode int` -/
abbrev ParsingMode := Int
/-- parsing_mode.go:6 -/
abbrev DefaultMode : ParsingMode := 0
/-- parsing_mode.go:7 -/
abbrev RFC2141Only : ParsingMode := 1
/-- parsing_mode.go:8 -/
abbrev RFC7643Only : ParsingMode := 2
/-- parsing_mode.go:9 -/
abbrev RFC8141Only : ParsingMode := 3
/-- parsing_mode.go:12 -/
abbrev DefaultParsingMode : ParsingMode := RFC2141Only

/-- machine.go:9-27: one constructor per error message template. -/
inductive ErrKind where
  | pfx | identifier | specificString | noUrnWithinID | hex
  | scimNamespace | scimType | scimName | scimOther | scimOtherIncomplete
  | informalID8141 | specificString8141 | identifier8141
  | rComponentStart8141 | qComponentStart8141 | malformedRComp8141 | malformedQComp8141
  deriving DecidableEq, Repr

/-- An error made by `fmt.Errorf(template, col)`. -/
structure Err where
  kind : ErrKind
  col : Int
  deriving DecidableEq, Repr

/-- machine.go:9-27: the message templates, with the constant text before and after the verb `%d`
(the verb is always the last one, followed by `]`; `%%` is written as the `%` it prints). -/
def ErrKind.template : ErrKind → String
  | .pfx => "expecting the prefix to be the \"urn\" string (whatever case) [col "  -- machine.go:10
  | .identifier => "expecting the identifier to be string (1..31 alnum chars, also containing dashes but not at its beginning) [col "  -- machine.go:11
  | .specificString => "expecting the specific string to be a string containing alnum, hex, or others ([()+,-.:=@;$_!*']) chars [col "  -- machine.go:12
  | .noUrnWithinID => "expecting the identifier to not contain the \"urn\" reserved string [col "  -- machine.go:13
  | .hex => "expecting the percent encoded chars to be well-formed (%alnum{2}) [col "  -- machine.go:14
  | .scimNamespace => "expecing the SCIM namespace identifier (ietf:params:scim) [col "  -- machine.go:15
  | .scimType => "expecting a correct SCIM type (schemas, api, param) [col "  -- machine.go:16
  | .scimName => "expecting one or more alnum char in the SCIM name part [col "  -- machine.go:17
  | .scimOther => "expecting a well-formed other SCIM part [col "  -- machine.go:18
  | .scimOtherIncomplete => "expecting a not empty SCIM other part after colon [col "  -- machine.go:19
  | .informalID8141 => "informal URN namespace must be in the form urn-[1-9][0-9] [col "  -- machine.go:20
  | .specificString8141 => "expecting the specific string to contain alnum, hex, or others ([~&()+,-.:=@;$_!*'] or [/?] not in first position) chars [col "  -- machine.go:21
  | .identifier8141 => "expecting the indentifier to be a string with (length 2 to 32 chars) containing alnum (or dashes) not starting or ending with a dash [col "  -- machine.go:22
  | .rComponentStart8141 => "expecting only one r-component (starting with the ?+ sequence) [col "  -- machine.go:23
  | .qComponentStart8141 => "expecting only one q-component (starting with the ?= sequence) [col "  -- machine.go:24
  | .malformedRComp8141 => "expecting a non-empty r-component containing alnum, hex, or others ([~&()+,-.:=@;$_!*'] or [/?] but not at its beginning) [col "  -- machine.go:25
  | .malformedQComp8141 => "expecting a non-empty q-component containing alnum, hex, or others ([~&()+,-.:=@;$_!*'] or [/?] but not at its beginning) [col "  -- machine.go:26

/-- The text of the error value: `fmt.Errorf(template, col)`. -/
def Err.text (e : Err) : String := e.kind.template ++ toString e.col ++ "]"

/-- machine.go:99-107 -/
structure Machine where
  data : Bytes := []
  cs : Nat := 0
  p : Int := 0
  pe : Int := 0
  eof : Int := 0
  pb : Int := 0
  err : Option Err := none
  startParsingAt : Nat := 0
  parsingMode : ParsingMode := 0
  parsingModeSet : Bool := false
  deriving DecidableEq, Repr

/-- machine.go:133-135 `func (m *machine) text() []byte` (followed, at every use, by a
conversion to `string`, i.e. a copy). -/
def Machine.text (m : Machine) : Except Panic Bytes := slice m.data m.pb m.p

/-- What an action did: fall through to the next statement, or `goto _again`. -/
inductive Flow where
  | next | again
  deriving DecidableEq, Repr

/-- The common tail of the error actions: `m.err = fmt.Errorf(tmpl, col); m.p--; m.cs = 193;
goto _again` (e.g. machine.go:4186-4190). -/
def raise (k : ErrKind) (col : Int) (m : Machine) (o : URN) : Flow × Machine × URN :=
  (.again, { m with err := some ⟨k, col⟩, p := m.p - 1, cs := enFail }, o)

/-- One of the two loops of `set_nss` (machine.go:4174-4176 with `delta = 32`,
machine.go:4179-4181 with `delta = -32`, in byte arithmetic):
`for _, i := range tolower { data[pb+i] = data[pb+i] + delta }` -/
def shiftAll (pb : Int) (delta : UInt8) : List Int → Bytes → Except Panic Bytes
  | [], d => .ok d
  | i :: is, d => do
      let c ← index d (pb + i)
      let d ← store d (pb + i) (c + delta)
      shiftAll pb delta is d

/-- The actions (machine.go:4149-4619, text from machine.go.rl:35-262).  See `Tables.fActs` and
`Tables.eofActs` for the exact lines of every copy of each action in machine.go. -/
def execAct (a : Act) (m : Machine) (o : URN) : Except Panic (Flow × Machine × URN) :=
  match a with
  -- machine.go.rl:35-37
  | .mark => .ok (.next, { m with pb := m.p }, o)
  -- machine.go.rl:39-42
  | .tolower => .ok (.next, m, { o with tolower := o.tolower ++ [m.p - m.pb] })
  -- machine.go.rl:44-46
  | .setPre => do let t ← m.text; pure (.next, m, { o with «prefix» := t })
  -- machine.go.rl:48-59
  | .throwPreUrnErr =>
      if m.parsingMode ≠ RFC8141Only then
        let pos := m.p + 3
        if pos < m.pe then do
          let c ← index m.data pos
          if c == 58 && o.prefix ≠ [] then
            pure (raise .noUrnWithinID pos m o)
          else pure (.next, m, o)
        else .ok (.next, m, o)
      else .ok (.next, m, o)
  -- machine.go.rl:61-63
  | .setNid => do let t ← m.text; pure (.next, m, { o with ID := t })
  -- machine.go.rl:65-76
  | .setNss => do
      let ss ← m.text
      let d1 ← shiftAll m.pb 32 o.tolower m.data
      let m1 := { m with data := d1 }
      let norm ← m1.text
      let d2 ← shiftAll m1.pb (-32) o.tolower m1.data
      pure (.next, { m1 with data := d2 }, { o with SS := ss, norm := norm })
  -- machine.go.rl:78-100
  | .errPre => .ok (raise .pfx m.p m o)
  | .errNid => .ok (raise .identifier m.p m o)
  | .errNss => .ok (raise .specificString m.p m o)
  | .errUrn => .ok (raise .noUrnWithinID m.p m o)
  -- machine.go.rl:102-108
  | .errHex =>
      if m.parsingMode = RFC2141Only ∨ m.parsingMode = RFC8141Only then
        .ok (raise .hex m.p m o)
      else .ok (.next, m, o)
  -- machine.go.rl:110-112
  | .baseType => .ok (.next, m, { o with kind := .RFC2141 })
  -- machine.go.rl:130-146
  | .errScimNid => .ok (raise .scimNamespace m.p m o)
  | .errScimType => .ok (raise .scimType m.p m o)
  | .errScimName => .ok (raise .scimName m.p m o)
  -- machine.go.rl:148-156
  | .errScimOther =>
      if m.p = m.pe then .ok (raise .scimOtherIncomplete (m.p - 1) m o)
      else .ok (raise .scimOther m.p m o)
  -- machine.go.rl:158-164
  | .scimType => .ok (.next, m, { o with kind := .RFC7643 })
  | .createScim => .ok (.next, m, { o with scim := some {} })
  -- machine.go.rl:166-168
  | .setScimType => do
      let t ← m.text
      match o.scim with
      | none => .error .nilDeref
      | some s => pure (.next, m, { o with scim := some { s with Typ := SchemaType.fromString t } })
  -- machine.go.rl:170-172 and 178-180
  | .markScim =>
      match o.scim with
      | none => .error .nilDeref
      | some s => .ok (.next, m, { o with scim := some { s with pos := m.p } })
  -- machine.go.rl:174-176
  | .setScimName =>
      match o.scim with
      | none => .error .nilDeref
      | some s => do
          let t ← slice m.data s.pos m.p
          pure (.next, m, { o with scim := some { s with Name := t } })
  -- machine.go.rl:182-184
  | .setScimOther =>
      match o.scim with
      | none => .error .nilDeref
      | some s => do
          let t ← slice m.data s.pos m.p
          pure (.next, m, { o with scim := some { s with Other := t } })
  -- machine.go.rl:200-210
  | .errNss8141 => .ok (raise .specificString8141 m.p m o)
  | .errNid8141 => .ok (raise .identifier8141 m.p m o)
  -- machine.go.rl:212-226
  | .rfc8141Type => .ok (.next, m, { o with kind := .RFC8141 })
  | .setRComponent => do let t ← m.text; pure (.next, m, { o with rComponent := t })
  | .setQComponent => do let t ← m.text; pure (.next, m, { o with qComponent := t })
  | .setFComponent => do let t ← m.text; pure (.next, m, { o with fComponent := t })
  -- machine.go.rl:228-232 (the decrement comes before the column is read)
  | .informalNidMatch =>
      .ok (.again, { m with p := m.p - 1, err := some ⟨.informalID8141, m.p - 1⟩, cs := enFail }, o)
  -- machine.go.rl:234-250
  | .markRStart =>
      if o.rStart then .ok (raise .rComponentStart8141 m.p m o)
      else .ok (.next, m, { o with rStart := true })
  | .markQStart =>
      if o.qStart then .ok (raise .qComponentStart8141 m.p m o)
      else .ok (.next, m, { o with qStart := true })
  -- machine.go.rl:252-262
  | .errMalformedR => .ok (raise .malformedRComp8141 m.p m o)
  | .errMalformedQ => .ok (raise .malformedQComp8141 m.p m o)

/-- A block of actions: statements run in order until one of them executes `goto _again`. -/
def execActs : List Act → Machine → URN → Except Panic (Flow × Machine × URN)
  | [], m, o => .ok (.next, m, o)
  | a :: as, m, o => do
      let (fl, m', o') ← execAct a m o
      match fl with
      | .again => pure (.again, m', o')
      | .next => execActs as m' o'

/-- Program labels of the generated code: `_resume` (machine.go:156), `_again` (4621),
`_testEof` (4637), `_out` (5023). -/
inductive Ctl where
  | resume | again | testEof | out
  deriving DecidableEq, Repr

/-- Configuration of a running `Parse`: label, machine, and the local `output`. -/
structure St where
  ctl : Ctl
  m : Machine
  o : URN
  deriving DecidableEq, Repr

/-- Execute the code from one program label to the next. -/
def step (s : St) : Except Panic St :=
  match s.ctl with
  -- machine.go:156-4619
  | .resume => do
      let c ← index s.m.data s.m.p
      match dispatch s.m.cs c with
      | .out => pure { s with ctl := .out }
      | .tr n =>
          let (target, f) := trRow n
          let m := { s.m with cs := target }
          match f with
          | none => pure ⟨.again, m, s.o⟩
          | some f => do
              -- every `f` block ends with `goto _again`, as does every early exit
              let (_, m', o') ← execActs (fActs f) m s.o
              pure ⟨.again, m', o'⟩
  -- machine.go:4621-4636
  | .again =>
      match toStateActions[s.m.cs]? with
      | none => .error .index
      | some 33 => do
          let (_, m', o') ← execAct .informalNidMatch s.m s.o
          pure ⟨.again, m', o'⟩
      | some _ =>
          if s.m.cs = 0 then pure { s with ctl := .out }
          else
            let m := { s.m with p := s.m.p + 1 }
            if m.p ≠ m.pe then pure ⟨.resume, m, s.o⟩ else pure ⟨.testEof, m, s.o⟩
  -- machine.go:4637-5021
  | .testEof =>
      if s.m.p = s.m.eof then
        match eofActions[s.m.cs]? with
        | none => .error .index
        | some n => do
            let (fl, m', o') ← execActs (eofActs n) s.m s.o
            match fl with
            | .again => pure ⟨.again, m', o'⟩
            | .next => pure ⟨.out, m', o'⟩
      else pure { s with ctl := .out }
  -- machine.go:5023-5026
  | .out => pure s

/-- Run the loop until `_out`, with a bound on the number of steps. -/
def run : Nat → St → Run (Machine × URN)
  | _, ⟨.out, m, o⟩ => .ok (m, o)
  | 0, _ => .diverge
  | n + 1, s =>
      match step s with
      | .ok s' => run n s'
      | .error p => .panic p

/-- Number of steps after which the model gives up.  `C02` proves it is never reached, so the
value does not matter. -/
def fuelFor (n : Nat) : Nat := 3 * n + 20

/-- machine.go:139-148: the state of the machine and of `output` on entry to the loop. -/
def Machine.init (m : Machine) (input : Bytes) : Machine :=
  { m with data := input, p := 0, pb := 0, pe := input.length, eof := input.length,
           err := none, cs := m.startParsingAt }

/-- machine.go:150-155: where the loop is entered. -/
def entry (m : Machine) : St :=
  if m.p = m.pe then ⟨.testEof, m, { tolower := [] }⟩
  else if m.cs = 0 then ⟨.out, m, { tolower := [] }⟩
  else ⟨.resume, m, { tolower := [] }⟩

/-- machine.go:5029-5033: the two return statements. -/
def result (m : Machine) (o : URN) : Option URN × Option Err :=
  if m.cs < firstFinal ∨ m.cs = enFail then (none, m.err) else (some o, none)

/-- What `(*machine).Parse` returns, together with the machine (and so the buffer) afterwards. -/
structure Parsed where
  m : Machine
  urn : Option URN
  err : Option Err
  deriving DecidableEq, Repr

/-- machine.go:138-5034 `func (m *machine) Parse(input []byte) (*URN, error)`.
The final contents of the caller's buffer are `(_).m.data`. -/
def Machine.parse (m : Machine) (input : Bytes) : Run Parsed := do
  let (m', o) ← run (fuelFor input.length) (entry (m.init input))
  let (u, e) := result m' o
  pure ⟨m', u, e⟩

/-- machine.go:5036-5047 `func (m *machine) WithParsingMode(x ParsingMode)` -/
def Machine.withParsingMode (m : Machine) (x : ParsingMode) : Machine :=
  let m := { m with parsingMode := x }
  let m :=
    if x = RFC2141Only then { m with startParsingAt := enMain }
    else if x = RFC8141Only then { m with startParsingAt := enRfc8141Only }
    else if x = RFC7643Only then { m with startParsingAt := enScimOnly }
    else m
  { m with parsingModeSet := true }

/-- machine.go:129-131 `func (m *machine) Error() error` -/
def Machine.error (m : Machine) : Option Err := m.err

/-- The calls a client can make on a `Machine` (machine.go:93-97). -/
inductive Op where
  | parse (input : Bytes)
  | withParsingMode (x : ParsingMode)
  | error
  deriving DecidableEq, Repr

/-- What a call returns. -/
inductive Out where
  | parsed (urn : Option URN) (err : Option Err)
  | unit
  | err (e : Option Err)
  deriving DecidableEq, Repr

/-- One call on a machine. -/
def Machine.exec (m : Machine) : Op → Run (Machine × Out)
  | .parse input => do let r ← m.parse input; pure (r.m, .parsed r.urn r.err)
  | .withParsingMode x => pure (m.withParsingMode x, .unit)
  | .error => pure (m, .err m.error)

/-- A sequence of calls on one machine: the final machine and the list of results. -/
def Machine.execAll (m : Machine) : List Op → Run (Machine × List Out)
  | [] => pure (m, [])
  | op :: ops => do
      let (m', out) ← m.exec op
      let (m'', outs) ← m'.execAll ops
      pure (m'', out :: outs)

/-- options.go:3 `type Option func(Machine)`: a function that may call the methods of the
machine it is given, here the list of the calls it makes. -/
abbrev Opt := List Op

/-- options.go:5-9 `func WithParsingMode(mode ParsingMode) Option` -/
def withParsingMode (mode : ParsingMode) : Opt := [.withParsingMode mode]

/-- machine.go:110-124 `func NewMachine(options ...Option) Machine` -/
def newMachine (options : List Opt) : Run Machine := do
  let (m, _) ← ({ parsingModeSet := false } : Machine).execAll options.flatten
  pure (if m.parsingModeSet then m else m.withParsingMode DefaultParsingMode)

end Urn
