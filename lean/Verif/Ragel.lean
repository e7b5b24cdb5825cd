import Verif.Tables
/-!
# What a Ragel grammar means

The operators of Ragel 6 that `/repo/machine.go.rl` uses, with the meaning the Ragel guide gives them.  Ragel is not
part of go-urn; there is no copy of it here to cite.  The guide defines an expression as an automaton whose transitions
carry actions (with the order in which they were embedded) and priorities, and whose states carry the actions for
errors, for the end of the input, and for entering the state; determinisation merges states and transitions, keeping
of two transitions only the one with the higher priority if they have priorities of the same name.

Here the states of the automaton of an expression are its start and the places in it where a character has been read.
Minimisation is not modelled: it changes the states, but nothing that can be observed.  `shiftStartActionOrder`
(actions on the first character of a repeated expression get new numbers) is not modelled either: no expression of the
grammar has actions both on entering and on leaving a repeated part.
-/
set_option autoImplicit false
namespace Urn.Ragel
open Tables (Act)

/-! ## Expressions -/

/-- A set of bytes, as inclusive ranges. -/
abbrev Ranges := List (UInt8 × UInt8)

/-- Where an action is embedded. -/
inductive Embed where
  /-- `>a`: on the first character -/
  | enter
  /-- `%a`: on leaving, by the next character or the end of the input -/
  | leave
  /-- `$err(a)`, `%err(a)`, `@err(a)`: on an error in any state; in a final one; in one that is not final -/
  | errAny | errFinal | errNotFinal
  /-- `%eof(a)`: at the end of the input, in a final state -/
  | eofFinal
  /-- `%to(a)`: on moving into a final state -/
  | toFinal
  deriving DecidableEq, Repr

/-- Expressions. -/
inductive Rl where
  /-- `[a-z]` -/
  | cls (r : Ranges)
  /-- `a b` -/
  | cat (a b : Rl)
  /-- `a <: b` -/
  | leftGuarded (a b : Rl)
  /-- `a :>> b` -/
  | finishGuarded (a b : Rl)
  /-- `a | b` -/
  | alt (a b : Rl)
  /-- `a - b` -/
  | diff (a b : Rl)
  /-- `a*` -/
  | star (a : Rl)
  /-- `a+` -/
  | plus (a : Rl)
  /-- `a?` -/
  | opt (a : Rl)
  /-- `a{2}` -/
  | twice (a : Rl)
  /-- `a{0,n}` -/
  | upTo (n : Nat) (a : Rl)
  /-- `a` with actions -/
  | with (a : Rl) (actions : List (Embed × Act))

/-- Which transitions of an expression get a priority. -/
inductive Prio where
  | all | start | finish
  deriving DecidableEq, Repr

/-- Expressions in which each embedding of an action has its number, and the operators that stand for others have been
expanded. -/
inductive Exp where
  | cls (r : Ranges)
  | eps
  | cat (a b : Exp)
  | alt (a b : Exp)
  | diff (a b : Exp)
  | star (a : Exp)
  | upTo (n : Nat) (a : Exp)
  | act (e : Embed) (ord : Nat) (x : Act) (a : Exp)
  | prio (w : Prio) (name value : Nat) (a : Exp)

/-- Actions with the numbers that give their order. -/
abbrev Acts := List (Nat × Act)

/-- Number the actions on entering (`on = true`) or the others, beginning with `n`. -/
def numberActs (on : Bool) : List (Embed × Act) → Nat → List (Embed × Nat × Act) × Nat
  | [], n => ([], n)
  | (e, x) :: l, n =>
      if (e == .enter) = on then let y := numberActs on l (n + 1); ((e, n, x) :: y.1, y.2)
      else numberActs on l n

/-- Embed numbered actions. -/
def embed (a : Exp) : List (Embed × Nat × Act) → Exp
  | [] => a
  | (e, n, x) :: l => embed (.act e n x a) l

/-- Number the actions, in the order in which Ragel reads the expression (actions on entering before the
expression, the others after it), from `n` on, and name the priorities, from `k` on. -/
def number : Rl → Nat → Nat → Exp × Nat × Nat
  | .cls r, n, k => (.cls r, n, k)
  | .cat a b, n, k =>
      let (a, n, k) := number a n k
      let (b, n, k) := number b n k
      (.cat a b, n, k)
  | .alt a b, n, k =>
      let (a, n, k) := number a n k
      let (b, n, k) := number b n k
      (.alt a b, n, k)
  | .diff a b, n, k =>
      let (a, n, k) := number a n k
      let (b, n, k) := number b n k
      (.diff a b, n, k)
  -- the transitions of `a` win over the first ones of `b`
  | .leftGuarded a b, n, k =>
      let (a, n, k) := number a n k
      let (b, n, k) := number b n k
      (.cat (.prio .all k 1 a) (.prio .start k 0 b), n, k + 1)
  -- the transitions that finish `b` win over those of `a`
  | .finishGuarded a b, n, k =>
      let (a, n, k) := number a n k
      let (b, n, k) := number b n k
      (.cat (.prio .all k 0 a) (.prio .finish k 1 b), n, k + 1)
  | .star a, n, k =>
      let (a, n, k) := number a n k
      (.star a, n, k)
  | .plus a, n, k =>
      let (a, n, k) := number a n k
      (.cat a (.star a), n, k)
  | .opt a, n, k =>
      let (a, n, k) := number a n k
      (.alt a .eps, n, k)
  | .twice a, n, k =>
      let (a, n, k) := number a n k
      (.cat a a, n, k)
  | .upTo m a, n, k =>
      let (a, n, k) := number a n k
      (.upTo m a, n, k)
  | .with a l, n, k =>
      let (l1, n) := numberActs true l n
      let (a, n, k) := number a n k
      let (l2, n) := numberActs false l n
      (embed a (l1 ++ l2), n, k)

/-! ## The automaton of an expression -/

/-- The places in an expression where a character has been read. -/
inductive Place where
  | here
  | left (x : Place)
  | right (x : Place)
  /-- in the copy number `k` of a repeated expression -/
  | copy (k : Nat) (x : Place)
  /-- in a difference: where in the first operand, and in the second, unless the text is no beginning of that -/
  | both (x y : Place)
  | only (x : Place)
  deriving DecidableEq, Repr

/-- What leaving an expression adds to the next transition: actions and priorities. -/
structure Leaving where
  acts : Acts := []
  prios : List (Nat × Nat) := []

/-- A transition. -/
structure Edge where
  to : Place
  acts : Acts := []
  prios : List (Nat × Nat) := []

/-- A transition seen from a larger expression. -/
def Edge.via (f : Place → Place) (e : Edge) : Edge := { e with to := f e.to }

/-- A transition taken on leaving another expression. -/
def Edge.after (o : Leaving) (e : Edge) : Edge := { e with acts := o.acts ++ e.acts, prios := o.prios ++ e.prios }

/-- What leaving two expressions at once adds. -/
def Leaving.append (o p : Leaving) : Leaving := ⟨o.acts ++ p.acts, o.prios ++ p.prios⟩

/-- Whether a byte is in a set. -/
def mem (c : UInt8) (r : Ranges) : Bool := r.any fun x => x.1 ≤ c && c ≤ x.2

/-- Whether a state is final (`none` is the start), and what leaving from it adds. -/
def fin : Exp → Option Place → Option Leaving
  | .cls _, none => none
  | .cls _, some _ => some {}
  | .eps, _ => some {}
  | .cat a b, none => (fin a none).bind fun o => (fin b none).map o.append
  | .cat a b, some (.left x) => (fin a (some x)).bind fun o => (fin b none).map o.append
  | .cat _ b, some (.right x) => fin b (some x)
  | .cat _ _, some _ => none
  | .alt a b, none =>
      match fin a none, fin b none with
      | some o, some p => some (o.append p)
      | some o, none => some o
      | none, p => p
  | .alt a _, some (.left x) => fin a (some x)
  | .alt _ b, some (.right x) => fin b (some x)
  | .alt _ _, some _ => none
  | .diff a b, none => if (fin b none).isSome then none else fin a none
  | .diff a b, some (.both x y) => if (fin b (some y)).isSome then none else fin a (some x)
  | .diff a _, some (.only x) => fin a (some x)
  | .diff _ _, some _ => none
  | .star a, none => some ((fin a none).getD {})
  | .star a, some x => fin a (some x)
  | .upTo _ _, none => some {}
  | .upTo _ a, some (.copy _ x) => fin a (some x)
  | .upTo _ _, some _ => none
  | .act e n x a, s =>
      (fin a s).map fun o => if e = .leave ∨ (e = .enter ∧ s = none) then o.append { acts := [(n, x)] } else o
  | .prio w n v a, s => (fin a s).map fun o => if w ≠ .all ∧ s = none then o.append { prios := [(n, v)] } else o

/-- The transitions from a state with a byte. -/
def edges : Exp → Option Place → UInt8 → List Edge
  | .cls r, none, c => if mem c r then [{ to := .here }] else []
  | .cls _, some _, _ => []
  | .eps, _, _ => []
  | .cat a b, none, c =>
      (edges a none c).map (Edge.via .left) ++
        (match fin a none with
        | some o => (edges b none c).map fun e => (e.via .right).after o
        | none => [])
  | .cat a b, some (.left x), c =>
      (edges a (some x) c).map (Edge.via .left) ++
        (match fin a (some x) with
        | some o => (edges b none c).map fun e => (e.via .right).after o
        | none => [])
  | .cat _ b, some (.right x), c => (edges b (some x) c).map (Edge.via .right)
  | .cat _ _, some _, _ => []
  | .alt a b, none, c => (edges a none c).map (Edge.via .left) ++ (edges b none c).map (Edge.via .right)
  | .alt a _, some (.left x), c => (edges a (some x) c).map (Edge.via .left)
  | .alt _ b, some (.right x), c => (edges b (some x) c).map (Edge.via .right)
  | .alt _ _, some _, _ => []
  | .diff a b, none, c => pairs (edges a none c) (edges b none c)
  | .diff a b, some (.both x y), c => pairs (edges a (some x) c) (edges b (some y) c)
  | .diff a _, some (.only x), c => pairs (edges a (some x) c) []
  | .diff _ _, some _, _ => []
  | .star a, none, c => edges a none c
  | .star a, some x, c =>
      edges a (some x) c ++
        (match fin a (some x) with
        | some o => (edges a none c).map (Edge.after o)
        | none => [])
  | .upTo n a, none, c => if 0 < n then (edges a none c).map (Edge.via (.copy 0)) else []
  | .upTo n a, some (.copy k x), c =>
      (edges a (some x) c).map (Edge.via (.copy k)) ++
        (match fin a (some x) with
        | some o => if k + 1 < n then (edges a none c).map fun e => (e.via (.copy (k + 1))).after o else []
        | none => [])
  | .upTo _ _, some _, _ => []
  | .act e n x a, s, c =>
      if e = .enter ∧ s = none then (edges a s c).map (Edge.after { acts := [(n, x)] }) else edges a s c
  | .prio w n v a, s, c =>
      (edges a s c).map fun e =>
        if w = .all ∨ (w = .start ∧ s = none) ∨ (w = .finish ∧ (fin a (some e.to)).isSome) then
          e.after { prios := [(n, v)] }
        else e
where
  /-- The transitions of a difference `a - b`; `b` has at most one with each byte. -/
  pairs (as bs : List Edge) : List Edge :=
    match bs with
    | [] => as.map (Edge.via .only)
    | bs => as.flatMap fun e => bs.map fun f => ⟨.both e.to f.to, e.acts ++ f.acts, e.prios ++ f.prios⟩

/-- What actions of states are for. -/
inductive When where
  | err | eof | to
  deriving DecidableEq, Repr

/-- Whether an action of the kind `e` in a state (final or not) is for `w`. -/
def Embed.applies (e : Embed) (w : When) (final : Bool) : Bool :=
  match w, e with
  | .err, .errAny => true
  | .err, .errFinal => final
  | .err, .errNotFinal => !final
  | .eof, .eofFinal => final
  | .to, .toFinal => final
  | _, _ => false

/-- The actions of a state. -/
def stateActs (w : When) : Exp → Option Place → Acts
  | .cls _, _ => []
  | .eps, _ => []
  | .cat a b, none => stateActs w a none ++ (if (fin a none).isSome then stateActs w b none else [])
  | .cat a b, some (.left x) =>
      stateActs w a (some x) ++ (if (fin a (some x)).isSome then stateActs w b none else [])
  | .cat _ b, some (.right x) => stateActs w b (some x)
  | .cat _ _, some _ => []
  | .alt a b, none => stateActs w a none ++ stateActs w b none
  | .alt a _, some (.left x) => stateActs w a (some x)
  | .alt _ b, some (.right x) => stateActs w b (some x)
  | .alt _ _, some _ => []
  | .diff a b, none => stateActs w a none ++ stateActs w b none
  | .diff a b, some (.both x y) => stateActs w a (some x) ++ stateActs w b (some y)
  | .diff a _, some (.only x) => stateActs w a (some x)
  | .diff _ _, some _ => []
  | .star a, none => stateActs w a none
  | .star a, some x => stateActs w a (some x) ++ (if (fin a (some x)).isSome then stateActs w a none else [])
  | .upTo n a, none => if 0 < n then stateActs w a none else []
  | .upTo n a, some (.copy k x) =>
      stateActs w a (some x) ++ (if (fin a (some x)).isSome ∧ k + 1 < n then stateActs w a none else [])
  | .upTo _ _, some _ => []
  | .act e n x a, s => stateActs w a s ++ (if e.applies w (fin a s).isSome then [(n, x)] else [])
  | .prio _ _ _ a, s => stateActs w a s

/-! ## The deterministic automaton -/

/-- A state of the deterministic automaton: the states that the automaton of the expression can be in. -/
abbrev Config := List (Option Place)

/-- The first transition has a higher priority than the second: by the first name for which both have different
priorities. -/
def beats (a b : Edge) : Bool :=
  match a.prios.findSome? fun x => (b.prios.find? fun y => y.1 = x.1 ∧ y.2 ≠ x.2).map fun y => decide (y.2 < x.2) with
  | some r => r
  | none => false

/-- Insert an action in order. -/
def insertAct (x : Nat × Act) : Acts → Acts
  | [] => [x]
  | y :: l => if x.1 ≤ y.1 then x :: y :: l else y :: insertAct x l

/-- The actions in order, each once (the first time). -/
def inOrder (l : Acts) : List Act :=
  (l.foldr insertAct []).foldl (fun r x => if x.2 ∈ r then r else r ++ [x.2]) []

/-- Each place once. -/
def places (l : List Edge) : Config := l.foldr (fun e r => if some e.to ∈ r then r else some e.to :: r) []

/-- The transition of the deterministic automaton: the new state and the actions, in order. -/
def move (e : Exp) (s : Config) (c : UInt8) : Option (Config × List Act) :=
  let all := s.flatMap fun x => edges e x c
  match all.filter fun y => !(all.any fun z => beats z y) with
  | [] => none
  | l => some (places l, inOrder (l.flatMap Edge.acts))

/-- Whether a state of the deterministic automaton is final. -/
def final (e : Exp) (s : Config) : Bool := s.any fun x => (fin e x).isSome

/-- The actions of a state of the deterministic automaton on an error, or on moving into it. -/
def actsOf (w : When) (e : Exp) (s : Config) : List Act := inOrder (s.flatMap (stateActs w e))

/-- The actions at the end of the input: those for the end of the input, and those for leaving if the state is final,
or those for errors if not. -/
def eofActs (e : Exp) (s : Config) : List Act :=
  inOrder (s.flatMap (stateActs .eof e) ++
    (if final e s then s.flatMap fun x => ((fin e x).map Leaving.acts).getD [] else s.flatMap (stateActs .err e)))

end Urn.Ragel
