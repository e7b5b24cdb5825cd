import Verif.Ragel
import Verif.Machine
/-!
# machine.go.rl

The grammar that `/repo/machine.go` was generated from, line by line, and the code that Ragel generates for such a
grammar, in terms of the grammar: what `Parse` does according to `machine.go.rl`.  The actions are those of
`Machine.lean`, whose texts Ragel copies.
-/
set_option autoImplicit false
namespace Urn.Grammar
open Tables Ragel Rl

/-- `'x'` -/
def chr (c : UInt8) : Rl := .cls [(c, c)]
/-- `[xyz]` -/
def oneOf (s : String) : Rl := .cls ((lit s).map fun c => (c, c))
/-- `'text'` -/
def text (s : String) : Rl :=
  match lit s with
  | [] => .cls []
  | c :: w => w.foldl (fun a d => .cat a (chr d)) (chr c)
instance : HAppend Rl Rl Rl := ⟨.cat⟩
instance : HOr Rl Rl Rl := ⟨.alt⟩
instance : Sub Rl := ⟨.diff⟩

/-- The builtin machines `digit`, `lower`, `upper`, `alnum`. -/
def digit : Rl := .cls [(48, 57)]
@[inherit_doc digit] def lower : Rl := .cls [(97, 122)]
@[inherit_doc digit] def upper : Rl := .cls [(65, 90)]
@[inherit_doc digit] def alnum : Rl := .cls [(48, 57), (65, 90), (97, 122)]

/-- machine.go.rl:114 -/
def pre : Rl :=
  .with (.with (oneOf "uU") [(.errNotFinal, .errPre)] ++ .with (oneOf "rR") [(.errNotFinal, .errPre)] ++
    .with (oneOf "nN") [(.errNotFinal, .errPre)])
    [(.enter, .mark), (.enter, .throwPreUrnErr), (.leave, .setPre)]

/-- machine.go.rl:116 -/
def nid : Rl :=
  .with (.with alnum [(.enter, .mark)] ++ .upTo 31 (alnum ||| chr 45)) [(.errAny, .errNid), (.leave, .setNid)]

/-- machine.go.rl:118 -/
def hex : Rl :=
  chr 37 ++ .with (.twice (digit ||| lower ||| .with upper [(.enter, .tolower)])) [(.errAny, .errHex)]

/-- machine.go.rl:120 -/
def sss : Rl := alnum ||| oneOf "()+,-.:=@;$_!*'"

/-- machine.go.rl:122 -/
def nss : Rl := .with (.plus (sss ||| hex)) [(.errAny, .errNss)]

/-- machine.go.rl:124 -/
def nidNotUrn : Rl := nid - .with pre [(.errFinal, .errUrn)]

/-- machine.go.rl:126 -/
def urn : Rl :=
  pre ++ .with (chr 58) [(.errNotFinal, .errPre)] ++
    .with (nidNotUrn ++ chr 58 ++ .with nss [(.enter, .mark), (.leave, .setNss)]) [(.eofFinal, .baseType)]

/-- machine.go.rl:186 -/
def scimNid : Rl :=
  .with (text "ietf:params:scim") [(.enter, .mark), (.leave, .setNid), (.leave, .createScim), (.errAny, .errScimNid)]

/-- machine.go.rl:188 (`mark_scim_other` is `markScim`) -/
def scimOther : Rl :=
  chr 58 ++ .with (.plus (sss ||| hex)) [(.enter, .markScim), (.leave, .setScimOther), (.errAny, .errScimOther)]

/-- machine.go.rl:190 (`mark_scim_name` is `markScim`) -/
def scimName : Rl := .with (.plus alnum) [(.enter, .markScim), (.leave, .setScimName), (.errAny, .errScimName)]

/-- machine.go.rl:192 -/
def scimType : Rl :=
  .with (text "schemas" ||| text "api" ||| text "param") [(.enter, .mark), (.leave, .setScimType), (.errAny, .errScimType)]

/-- machine.go.rl:194 -/
def scimOnly : Rl :=
  pre ++ .with (chr 58) [(.errNotFinal, .errPre)] ++
    .with (scimNid ++ chr 58 ++ scimType ++ chr 58 ++ scimName ++ .with (.opt scimOther) [(.leave, .setNss)])
      [(.eofFinal, .scimType)]

/-- machine.go.rl:264 -/
def pchar : Rl := sss ||| chr 126 ||| chr 38 ||| hex

/-- machine.go.rl:266 -/
def component : Rl := pchar ++ .star (pchar ||| chr 47 ||| chr 63)

/-- machine.go.rl:268 -/
def rStart : Rl := .with (text "?+") [(.leave, .markRStart)]

/-- machine.go.rl:270 -/
def rComponent : Rl :=
  .leftGuarded rStart
    (.with (.plus (rStart ||| component)) [(.errAny, .errMalformedR), (.enter, .mark), (.leave, .setRComponent)])

/-- machine.go.rl:272 -/
def qStart : Rl := .with (text "?=") [(.leave, .markQStart)]

/-- machine.go.rl:274 -/
def qComponent : Rl :=
  .leftGuarded qStart
    (.with (.plus (qStart ||| component)) [(.errAny, .errMalformedQ), (.enter, .mark), (.leave, .setQComponent)])

/-- machine.go.rl:276 -/
def rqComponents : Rl := .finishGuarded rComponent (.opt qComponent) ||| qComponent

/-- machine.go.rl:278 -/
def fragment : Rl := .star (pchar ||| chr 47 ||| chr 63)

/-- machine.go.rl:280 -/
def fComponent : Rl := chr 35 ++ .with fragment [(.enter, .mark), (.leave, .setFComponent)]

/-- machine.go.rl:282 -/
def nssRfc8141 : Rl :=
  .with (.with pchar [(.enter, .mark)] ++ .star (pchar ||| chr 47)) [(.errAny, .errNss8141), (.leave, .setNss)]

/-- machine.go.rl:284 -/
def nidRfc8141 : Rl :=
  .with (.with alnum [(.enter, .mark)] ++ .upTo 30 (alnum ||| chr 45) ++ alnum) [(.errAny, .errNid8141), (.leave, .setNid)]

/-- machine.go.rl:286 (`[a-zA-z0]`, with a lower case `z` at the end of the second range) -/
def informalId : Rl :=
  pre ++ (chr 45 ++ .with (.cls [(97, 122), (65, 122), (48, 48)]) [(.toFinal, .informalNidMatch)])

/-- machine.go.rl:288 -/
def nidRfc8141NotUrn : Rl := nidRfc8141 - .opt informalId

/-- machine.go.rl:290 -/
def rfc8141Only : Rl :=
  pre ++ .with (chr 58) [(.errNotFinal, .errPre)] ++ nidRfc8141NotUrn ++ chr 58 ++ nssRfc8141 ++ .opt rqComponents ++
    .with (.opt fComponent) [(.eofFinal, .rfc8141Type)]

/-- machine.go.rl:294.  The action `@err{ fgoto main; }` is for states that are not final, of which there are none. -/
def fail : Rl := .star (.cls [(0, 9), (11, 12), (14, 255)])

/-- The instantiations (`:=`), machine.go.rl:194, 290, 294 and 296 (`main := urn`). -/
inductive Inst where
  | main | scimOnly | rfc8141Only | fail
  deriving DecidableEq, Repr

/-- Their expressions, with actions numbered.  (Each is numbered from 0: only the order within one matters.) -/
def Inst.exp : Inst → Exp
  | .main => (number urn 0 0).1
  | .scimOnly => (number Grammar.scimOnly 0 0).1
  | .rfc8141Only => (number Grammar.rfc8141Only 0 0).1
  | .fail => (number Grammar.fail 0 0).1

/-! ## The code generated for the grammar -/

/-- `cs`: the error state, or a state of an instantiation. -/
inductive State where
  | error
  | at (i : Inst) (s : Config)
  deriving DecidableEq, Repr

/-- The start of an instantiation: what `fgoto` and the constants `en_…` mean. -/
def State.start (i : Inst) : State := .at i [none]

/-- A running `Parse`: the program label, `cs`, the variables of the machine (its field `cs` is not used) and the local
`output`. -/
structure Running where
  ctl : Ctl
  cs : State
  m : Machine
  o : URN

/-- Execute actions; a jump out of them is always `fgoto fail`. -/
def perform (acts : List Act) (cs : State) (m : Machine) (o : URN) : Except Panic (Flow × State × Machine × URN) := do
  let (fl, m', o') ← execActs acts m o
  match fl with
  | .again => pure (.again, .start .fail, m', o')
  | .next => pure (.next, cs, m', o')

/-- From one program label to the next; what the Ragel guide says of the generated code. -/
def Running.step (s : Running) : Except Panic Running :=
  match s.ctl with
  -- a character: the transition and its actions, or the error state and the actions for errors
  | .resume => do
      let c ← index s.m.data s.m.p
      match s.cs with
      | .error => pure { s with ctl := .out }
      | .at i x => do
          let (cs, acts) := match move i.exp x c with
            | some (y, acts) => (State.at i y, acts)
            | none => (State.error, actsOf .err i.exp x)
          let (_, cs', m', o') ← perform acts cs s.m s.o
          pure ⟨.again, cs', m', o'⟩
  -- the actions for moving into the state; then the next character
  | .again =>
      match s.cs with
      | .error => pure { s with ctl := .out }
      | .at i x => do
          let (fl, cs', m', o') ← perform (actsOf .to i.exp x) s.cs s.m s.o
          match fl with
          | .again => pure ⟨.again, cs', m', o'⟩
          | .next =>
              let m' := { m' with p := m'.p + 1 }
              pure ⟨if m'.p ≠ m'.pe then .resume else .testEof, cs', m', o'⟩
  -- the end of the input
  | .testEof =>
      if s.m.p = s.m.eof then
        match s.cs with
        | .error => pure { s with ctl := .out }
        | .at i x => do
            let (fl, cs', m', o') ← perform (Ragel.eofActs i.exp x) s.cs s.m s.o
            pure ⟨match fl with | .again => .again | .next => .out, cs', m', o'⟩
      else pure { s with ctl := .out }
  | .out => pure s

/-- The loop, with a bound on the number of steps. -/
def Running.run : Nat → Running → Run Running
  | n, s =>
      if s.ctl = .out then .ok s
      else
        match n with
        | 0 => .diverge
        | n + 1 =>
            match s.step with
            | .ok s' => Running.run n s'
            | .error p => .panic p

/-- machine.go.rl:353-373 `Parse` on a machine that starts at `i`: what it returns, and the buffer afterwards.
`m.cs < first_final || m.cs == en_fail` says that the state is not final or is one of `fail`. -/
def parse (i : Inst) (mode : ParsingMode) (input : Bytes) : Run (Option URN × Option Err × Bytes) := do
  let m : Machine := { data := input, pe := input.length, eof := input.length, parsingMode := mode }
  let r ← Running.run (fuelFor input.length) ⟨if m.p = m.pe then .testEof else .resume, .start i, m, { tolower := [] }⟩
  match r.cs with
  | .at j x => if j ≠ .fail ∧ final j.exp x then pure (some r.o, none, r.m.data) else pure (none, r.m.err, r.m.data)
  | .error => pure (none, r.m.err, r.m.data)

/-- machine.go.rl:375-386: where a machine with a known parsing mode starts. -/
def instOf (mode : ParsingMode) : Inst :=
  if mode = RFC8141Only then .rfc8141Only else if mode = RFC7643Only then .scimOnly else .main

end Urn.Grammar
