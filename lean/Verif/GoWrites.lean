import Verif.Word
/-!
# Which bytes of its input `Parse` writes to

Only `set_nss` writes (machine.go.rl:65-76): it changes the letters that are listed in `tolower` and changes them back.
-/
set_option autoImplicit false
namespace Urn.GoLang
open Tables

/-- The action writes to a byte of the input whose index is in `q`. -/
def actWrites (w : Nat) (q : Int → Bool) : Act → Machine → URN → Bool
  | .setNss, m, o => o.tolower.any fun i => q (wrap w (m.pb + i))
  | _, _, _ => false

/-- One of the actions does. -/
def actsWrite (w : Nat) (q : Int → Bool) : List Act → Machine → URN → Bool
  | [], _, _ => false
  | a :: as, m, o => actWrites w q a m o ||
      match execActBits w a m o with
      | .ok (.next, m', o') => actsWrite w q as m' o'
      | _ => false

/-- The step does. -/
def stepWrites (w : Nat) (q : Int → Bool) (s : St) : Bool :=
  match s.ctl with
  | .resume =>
      match index s.m.data s.m.p with
      | .ok c =>
          match dispatch s.m.cs c with
          | .out => false
          | .tr n =>
              match (trRow n).2 with
              | none => false
              | some f => actsWrite w q (fActs f) { s.m with cs := (trRow n).1 } s.o
      | .error _ => false
  | .testEof =>
      if s.m.p = s.m.eof then
        match eofActions[s.m.cs]? with
        | none => false
        | some n => actsWrite w q (eofActs n) s.m s.o
      else false
  | .again | .out => false

/-- One of the steps does. -/
def loopWrites (w : Nat) (q : Int → Bool) : Nat → St → Bool
  | 0, _ => false
  | n + 1, s => stepWrites w q s ||
      match stepBits w s with
      | .ok s' => loopWrites w q n s'
      | .error _ => false

/-- The call does. -/
def parseWrites (w : Nat) (q : Int → Bool) (m : Machine) (input : Bytes) : Bool := loopWrites w q (fuelFor input.length) (Urn.entry (m.init input))

end Urn.GoLang
