import Verif.Urn
/-!
# The parser with machine integers

Go's `int` has 32 or 64 bits and wraps around.  `Machine.lean` computes with unbounded integers; here is the same code
with integers of `w` bits: each sum and difference of the Go code is wrapped.  Actions that do no arithmetic are those
of `Machine.lean`.
-/
set_option autoImplicit false
namespace Urn
open Tables

/-- The value of an integer in a variable of type `int` with `w` bits (two's complement). -/
def wrap (w : Nat) (x : Int) : Int := Int.bmod x (2 ^ w)

/-- `m.err = fmt.Errorf(tmpl, col); m.p--; m.cs = 193; goto _again` (e.g. machine.go:4186-4190) -/
def raiseBits (w : Nat) (k : ErrKind) (col : Int) (m : Machine) (o : URN) : Flow × Machine × URN :=
  (.again, { m with err := some ⟨k, col⟩, p := wrap w (m.p - 1), cs := enFail }, o)

/-- machine.go:4174-4176, 4179-4181: `data[m.pb+i]` -/
def shiftAllBits (w : Nat) (pb : Int) (delta : UInt8) : List Int → Bytes → Except Panic Bytes
  | [], d => .ok d
  | i :: is, d => do
      let c ← index d (wrap w (pb + i))
      let d ← store d (wrap w (pb + i)) (c + delta)
      shiftAllBits w pb delta is d

/-- The actions (machine.go.rl:35-262), as in `execAct`. -/
def execActBits (w : Nat) (a : Act) (m : Machine) (o : URN) : Except Panic (Flow × Machine × URN) :=
  match a with
  -- machine.go.rl:39-42: `m.p-m.pb`
  | .tolower => .ok (.next, m, { o with tolower := o.tolower ++ [wrap w (m.p - m.pb)] })
  -- machine.go.rl:48-59: `m.p + 3`
  | .throwPreUrnErr =>
      if m.parsingMode ≠ RFC8141Only then
        let pos := wrap w (m.p + 3)
        if pos < m.pe then do
          let c ← index m.data pos
          if c == 58 && o.prefix ≠ [] then
            pure (raiseBits w .noUrnWithinID pos m o)
          else pure (.next, m, o)
        else .ok (.next, m, o)
      else .ok (.next, m, o)
  -- machine.go.rl:65-76
  | .setNss => do
      let ss ← m.text
      let d1 ← shiftAllBits w m.pb 32 o.tolower m.data
      let m1 := { m with data := d1 }
      let norm ← m1.text
      let d2 ← shiftAllBits w m1.pb (-32) o.tolower m1.data
      pure (.next, { m1 with data := d2 }, { o with SS := ss, norm := norm })
  -- machine.go.rl:78-108
  | .errPre => .ok (raiseBits w .pfx m.p m o)
  | .errNid => .ok (raiseBits w .identifier m.p m o)
  | .errNss => .ok (raiseBits w .specificString m.p m o)
  | .errUrn => .ok (raiseBits w .noUrnWithinID m.p m o)
  | .errHex =>
      if m.parsingMode = RFC2141Only ∨ m.parsingMode = RFC8141Only then
        .ok (raiseBits w .hex m.p m o)
      else .ok (.next, m, o)
  -- machine.go.rl:130-156
  | .errScimNid => .ok (raiseBits w .scimNamespace m.p m o)
  | .errScimType => .ok (raiseBits w .scimType m.p m o)
  | .errScimName => .ok (raiseBits w .scimName m.p m o)
  | .errScimOther =>
      if m.p = m.pe then .ok (raiseBits w .scimOtherIncomplete (wrap w (m.p - 1)) m o)
      else .ok (raiseBits w .scimOther m.p m o)
  -- machine.go.rl:200-210
  | .errNss8141 => .ok (raiseBits w .specificString8141 m.p m o)
  | .errNid8141 => .ok (raiseBits w .identifier8141 m.p m o)
  -- machine.go.rl:228-232
  | .informalNidMatch =>
      .ok (.again, { m with p := wrap w (m.p - 1), err := some ⟨.informalID8141, wrap w (m.p - 1)⟩, cs := enFail }, o)
  -- machine.go.rl:234-262
  | .markRStart =>
      if o.rStart then .ok (raiseBits w .rComponentStart8141 m.p m o)
      else .ok (.next, m, { o with rStart := true })
  | .markQStart =>
      if o.qStart then .ok (raiseBits w .qComponentStart8141 m.p m o)
      else .ok (.next, m, { o with qStart := true })
  | .errMalformedR => .ok (raiseBits w .malformedRComp8141 m.p m o)
  | .errMalformedQ => .ok (raiseBits w .malformedQComp8141 m.p m o)
  -- no arithmetic
  | a => execAct a m o

/-- A block of actions, as in `execActs`. -/
def execActsBits (w : Nat) : List Act → Machine → URN → Except Panic (Flow × Machine × URN)
  | [], m, o => .ok (.next, m, o)
  | a :: as, m, o => do
      let (fl, m', o') ← execActBits w a m o
      match fl with
      | .again => pure (.again, m', o')
      | .next => execActsBits w as m' o'

/-- machine.go:156-5026, as in `step`; `m.p++` is the only arithmetic outside of the actions (machine.go:4633). -/
def stepBits (w : Nat) (s : St) : Except Panic St :=
  match s.ctl with
  | .resume => do
      let c ← index s.m.data s.m.p
      match dispatch s.m.cs c with
      | .out => pure { s with ctl := .out }
      | .tr n =>
          let (target, f) := trRow n
          let m := { s.m with cs := target }
          match f with
          | none => pure ⟨.again, m, s.o⟩
          | some f => do
              let (_, m', o') ← execActsBits w (fActs f) m s.o
              pure ⟨.again, m', o'⟩
  | .again =>
      match toStateActions[s.m.cs]? with
      | none => .error .index
      | some 33 => do
          let (_, m', o') ← execActBits w .informalNidMatch s.m s.o
          pure ⟨.again, m', o'⟩
      | some _ =>
          if s.m.cs = 0 then pure { s with ctl := .out }
          else
            let m := { s.m with p := wrap w (s.m.p + 1) }
            if m.p ≠ m.pe then pure ⟨.resume, m, s.o⟩ else pure ⟨.testEof, m, s.o⟩
  | .testEof =>
      if s.m.p = s.m.eof then
        match eofActions[s.m.cs]? with
        | none => .error .index
        | some n => do
            let (fl, m', o') ← execActsBits w (eofActs n) s.m s.o
            match fl with
            | .again => pure ⟨.again, m', o'⟩
            | .next => pure ⟨.out, m', o'⟩
      else pure { s with ctl := .out }
  | .out => pure s

/-- The loop, as in `run`. -/
def loopBits (w : Nat) : Nat → St → Run (Machine × URN)
  | _, ⟨.out, m, o⟩ => .ok (m, o)
  | 0, _ => .diverge
  | n + 1, s =>
      match stepBits w s with
      | .ok s' => loopBits w n s'
      | .error p => .panic p

/-- machine.go:138-5034 `Parse`, as in `Machine.parse`. -/
def Machine.parseBits (w : Nat) (m : Machine) (input : Bytes) : Run Parsed := do
  let (m', o) ← loopBits w (fuelFor input.length) (entry (m.init input))
  let (u, e) := result m' o
  pure ⟨m', u, e⟩

/-- One call on a machine, as in `Machine.exec`. -/
def Machine.execBits (w : Nat) (m : Machine) : Op → Run (Machine × Out)
  | .parse input => do let r ← m.parseBits w input; pure (r.m, .parsed r.urn r.err)
  | .withParsingMode x => pure (m.withParsingMode x, .unit)
  | .error => pure (m, .err m.error)

/-- A sequence of calls on one machine, as in `Machine.execAll`. -/
def Machine.execAllBits (w : Nat) (m : Machine) : List Op → Run (Machine × List Out)
  | [] => pure (m, [])
  | op :: ops => do
      let (m', out) ← m.execBits w op
      let (m'', outs) ← m'.execAllBits w ops
      pure (m'', out :: outs)

/-- machine.go:110-124 `NewMachine`, as in `newMachine`. -/
def newMachineBits (w : Nat) (options : List Opt) : Run Machine := do
  let (m, _) ← ({ parsingModeSet := false } : Machine).execAllBits w options.flatten
  pure (if m.parsingModeSet then m else m.withParsingMode DefaultParsingMode)

/-- urn.go:86-93 `Parse`, as in `parse`. -/
def parseBits (w : Nat) (u : Bytes) (options : List Opt := []) : Run ParseResult := do
  let m ← newMachineBits w options
  let r ← m.parseBits w u
  match r.err with
  | some _ => pure ⟨none, false, r.m.data⟩
  | none => pure ⟨r.urn, true, r.m.data⟩

end Urn
