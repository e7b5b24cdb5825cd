import Verif.RagelCert
import Verif.Sim
/-!
# The generated code follows the grammar

The automaton of `Ragel.lean` and the tables of machine.go go through the pairs of states of `RagelCert.lean` together:
checked by the kernel for each pair and one byte of each class of bytes that no part of the grammar tells apart.
-/
set_option autoImplicit false
namespace Urn.Grammar
open Ragel Tables

/-! ## Transitions with the set of their bytes -/

/-- The bytes from `a` to `b`, as bits of a number. -/
def rangeMask (x : UInt8 × UInt8) : Nat := (2 ^ (x.2.toNat + 1 - x.1.toNat) - 1) <<< x.1.toNat

/-- A set of bytes, as bits of a number. -/
def mask (r : Ranges) : Nat := r.foldr (fun x m => rangeMask x ||| m) 0

theorem testBit_rangeMask (x : UInt8 × UInt8) (c : UInt8) :
    (rangeMask x).testBit c.toNat = (decide (x.1 ≤ c) && decide (c ≤ x.2)) := by
  simp only [rangeMask, Nat.testBit_shiftLeft, Nat.testBit_two_pow_sub_one, UInt8.le_iff_toNat_le]
  rw [Bool.eq_iff_iff]
  simp only [Bool.and_eq_true, decide_eq_true_eq]
  omega

theorem testBit_mask (r : Ranges) (c : UInt8) : (mask r).testBit c.toNat = mem c r := by
  induction r with
  | nil => simp [mask, mem]
  | cons x r ih =>
    have : mask (x :: r) = rangeMask x ||| mask r := rfl
    rw [this, Nat.testBit_or, ih, testBit_rangeMask]
    rfl

/-- A transition and the bytes for which it is one. -/
abbrev Wide := Nat × Edge

/-- Change the transition. -/
def wmap (f : Edge → Edge) (l : List Wide) : List Wide := l.map fun g => (g.1, f g.2)

/-- The transitions of a difference. -/
def widePairs (as bs : List Wide) : List Wide :=
  as.flatMap fun g =>
    (g.1 ^^^ (g.1 &&& bs.foldr (fun (h : Wide) m => h.1 ||| m) 0), g.2.via .only) ::
      bs.map fun h => (g.1 &&& h.1, ⟨.both g.2.to h.2.to, g.2.acts ++ h.2.acts, g.2.prios ++ h.2.prios⟩)

/-- The transitions from a state. -/
def wide : Exp → Option Place → List Wide
  | .cls r, none => [(mask r, { to := .here })]
  | .cls _, some _ => []
  | .eps, _ => []
  | .cat a b, none =>
      wmap (Edge.via .left) (wide a none) ++
        (match fin a none with
        | some o => wmap (fun e => (e.via .right).after o) (wide b none)
        | none => [])
  | .cat a b, some (.left x) =>
      wmap (Edge.via .left) (wide a (some x)) ++
        (match fin a (some x) with
        | some o => wmap (fun e => (e.via .right).after o) (wide b none)
        | none => [])
  | .cat _ b, some (.right x) => wmap (Edge.via .right) (wide b (some x))
  | .cat _ _, some _ => []
  | .alt a b, none => wmap (Edge.via .left) (wide a none) ++ wmap (Edge.via .right) (wide b none)
  | .alt a _, some (.left x) => wmap (Edge.via .left) (wide a (some x))
  | .alt _ b, some (.right x) => wmap (Edge.via .right) (wide b (some x))
  | .alt _ _, some _ => []
  | .diff a b, none => widePairs (wide a none) (wide b none)
  | .diff a b, some (.both x y) => widePairs (wide a (some x)) (wide b (some y))
  | .diff a _, some (.only x) => widePairs (wide a (some x)) []
  | .diff _ _, some _ => []
  | .star a, none => wide a none
  | .star a, some x =>
      wide a (some x) ++
        (match fin a (some x) with
        | some o => wmap (Edge.after o) (wide a none)
        | none => [])
  | .upTo n a, none => if 0 < n then wmap (Edge.via (.copy 0)) (wide a none) else []
  | .upTo n a, some (.copy k x) =>
      wmap (Edge.via (.copy k)) (wide a (some x)) ++
        (match fin a (some x) with
        | some o => if k + 1 < n then wmap (fun e => (e.via (.copy (k + 1))).after o) (wide a none) else []
        | none => [])
  | .upTo _ _, some _ => []
  | .act e n x a, s =>
      if e = .enter ∧ s = none then wmap (Edge.after { acts := [(n, x)] }) (wide a s) else wide a s
  | .prio w n v a, s =>
      wmap (fun e =>
        if w = .all ∨ (w = .start ∧ s = none) ∨ (w = .finish ∧ (fin a (some e.to)).isSome) then
          e.after { prios := [(n, v)] }
        else e) (wide a s)

/-- The transitions for a byte. -/
def sel (c : UInt8) (l : List Wide) : List Edge := l.filterMap fun g => bif g.1.testBit c.toNat then some g.2 else none

theorem sel_append (c : UInt8) (l k : List Wide) : sel c (l ++ k) = sel c l ++ sel c k := List.filterMap_append

theorem sel_nil (c : UInt8) : sel c [] = [] := rfl

theorem sel_cons (c : UInt8) (g : Wide) (l : List Wide) :
    sel c (g :: l) = (if g.1.testBit c.toNat then [g.2] else []) ++ sel c l := by
  cases h : g.1.testBit c.toNat <;> simp [sel, h]

theorem sel_wmap (c : UInt8) (f : Edge → Edge) (l : List Wide) : sel c (wmap f l) = (sel c l).map f := by
  induction l with
  | nil => rfl
  | cons g l ih =>
    have : wmap f (g :: l) = (g.1, f g.2) :: wmap f l := rfl
    rw [this, sel_cons, sel_cons, ih]
    cases h : g.1.testBit c.toNat <;> simp

theorem sel_flatMap {α : Type} (c : UInt8) (f : α → List Wide) (l : List α) :
    sel c (l.flatMap f) = l.flatMap fun x => sel c (f x) := by
  induction l with
  | nil => rfl
  | cons x l ih => rw [List.flatMap_cons, List.flatMap_cons, sel_append, ih]

theorem or_masks (c : UInt8) (bs : List Wide) :
    (bs.foldr (fun (h : Wide) m => h.1 ||| m) 0).testBit c.toNat = !(sel c bs).isEmpty := by
  induction bs with
  | nil => simp [sel]
  | cons h bs ih =>
    rw [List.foldr_cons, Nat.testBit_or, ih, sel_cons]
    cases h.1.testBit c.toNat <;> simp

theorem sel_both (c : UInt8) (g : Wide) (bs : List Wide) :
    sel c (bs.map fun h => (g.1 &&& h.1, (⟨.both g.2.to h.2.to, g.2.acts ++ h.2.acts, g.2.prios ++ h.2.prios⟩ : Edge))) =
      if g.1.testBit c.toNat then
        (sel c bs).map fun f => ⟨.both g.2.to f.to, g.2.acts ++ f.acts, g.2.prios ++ f.prios⟩
      else [] := by
  induction bs with
  | nil => simp [sel]
  | cons h bs ih =>
    rw [List.map_cons, sel_cons, sel_cons, ih]
    simp only [Nat.testBit_and]
    cases g.1.testBit c.toNat <;> cases h.1.testBit c.toNat <;> simp

theorem sel_widePairs (c : UInt8) (as bs : List Wide) :
    sel c (widePairs as bs) = edges.pairs (sel c as) (sel c bs) := by
  rw [widePairs, sel_flatMap]
  have e1 : ∀ g : Wide, sel c ((g.1 ^^^ (g.1 &&& bs.foldr (fun (h : Wide) m => h.1 ||| m) 0), g.2.via .only) ::
      bs.map fun h => (g.1 &&& h.1, (⟨.both g.2.to h.2.to, g.2.acts ++ h.2.acts, g.2.prios ++ h.2.prios⟩ : Edge))) =
      if g.1.testBit c.toNat then edges.pairs [g.2] (sel c bs) else [] := by
    intro g
    rw [sel_cons, sel_both]
    simp only [Nat.testBit_xor, Nat.testBit_and, or_masks]
    cases hg : g.1.testBit c.toNat
    · simp
    · cases hb : sel c bs with
      | nil => simp [edges.pairs]
      | cons f r => simp [edges.pairs]
  simp only [e1]
  induction as with
  | nil => cases hb : sel c bs <;> simp [sel, edges.pairs]
  | cons g as ih =>
    rw [List.flatMap_cons, ih, sel_cons]
    cases hg : g.1.testBit c.toNat
    · simp
    · cases hb : sel c bs <;> simp [edges.pairs]

theorem edges_eq (c : UInt8) : ∀ (e : Exp) (s : Option Place), edges e s c = sel c (wide e s) := by
  intro e
  induction e with
  | cls r =>
    intro s
    cases s with
    | none => simp only [edges, wide, sel_cons, testBit_mask, sel_nil, List.append_nil]
    | some x => rfl
  | eps => intro s; rfl
  | cat a b iha ihb =>
    intro s
    rcases s with _ | x
    · simp only [edges, wide, sel_append, sel_wmap, iha, ihb]
      cases fin a none <;> simp only [sel_wmap, sel_nil]
    · cases x <;> simp only [edges, wide, sel_append, sel_wmap, iha, ihb, sel_nil]
      rename_i x
      cases fin a (some x) <;> simp only [sel_wmap, sel_nil]
  | alt a b iha ihb =>
    intro s
    rcases s with _ | x
    · simp only [edges, wide, sel_append, sel_wmap, iha, ihb]
    · cases x <;> simp only [edges, wide, sel_wmap, iha, ihb, sel_nil]
  | diff a b iha ihb =>
    intro s
    rcases s with _ | x
    · simp only [edges, wide, sel_widePairs, iha, ihb]
    · cases x <;> simp only [edges, wide, sel_widePairs, iha, ihb, sel_nil]
  | star a iha =>
    intro s
    rcases s with _ | x
    · simp only [edges, wide, iha]
    · simp only [edges, wide, sel_append, iha]
      cases fin a (some x) <;> simp only [sel_wmap, sel_nil]
  | upTo n a iha =>
    intro s
    rcases s with _ | x
    · simp only [edges, wide, iha]
      split <;> simp only [sel_wmap, sel_nil]
    · cases x <;> simp only [edges, wide, sel_append, sel_wmap, iha, sel_nil]
      rename_i k x
      cases fin a (some x) with
      | none => simp only [sel_nil]
      | some o => simp only []; split <;> simp only [sel_wmap, sel_nil]
  | act e n x a iha =>
    intro s
    simp only [edges, wide, iha]
    split <;> simp only [sel_wmap]
  | prio w n v a iha =>
    intro s
    simp only [edges, wide, iha, sel_wmap]

/-- `move`, given the transitions with their sets of bytes. -/
def moveW (l : List Wide) (c : UInt8) : Option (Config × List Act) :=
  let all := sel c l
  match all.filter fun y => !(all.any fun z => beats z y) with
  | [] => none
  | l => some (places l, inOrder (l.flatMap Edge.acts))

theorem move_eq (e : Exp) (s : Config) (c : UInt8) : move e s c = moveW (s.flatMap (wide e)) c := by
  simp only [move, moveW, sel_flatMap, edges_eq]
  rfl

/-! ## Classes of bytes -/

/-- The sets of bytes in an expression. -/
def classes : Exp → List Ranges
  | .cls r => [r]
  | .eps => []
  | .cat a b => classes a ++ classes b
  | .alt a b => classes a ++ classes b
  | .diff a b => classes a ++ classes b
  | .star a => classes a
  | .upTo _ a => classes a
  | .act _ _ _ a => classes a
  | .prio _ _ _ a => classes a

theorem edges_congr {c d : UInt8} : ∀ (e : Exp) (s : Option Place), (∀ r ∈ classes e, mem c r = mem d r) →
    edges e s c = edges e s d := by
  intro e
  induction e with
  | cls r =>
    intro s h
    cases s with
    | none => simp only [edges, h r (by simp [classes])]
    | some x => rfl
  | eps => intro s _; rfl
  | cat a b iha ihb =>
    intro s h
    have h1 : ∀ s, edges a s c = edges a s d := fun s => iha s fun r hr => h r (by simp [classes, hr])
    have h2 : ∀ s, edges b s c = edges b s d := fun s => ihb s fun r hr => h r (by simp [classes, hr])
    rcases s with _ | x
    · simp only [edges, h1, h2]
    · cases x <;> simp only [edges, h1, h2]
  | alt a b iha ihb =>
    intro s h
    have h1 : ∀ s, edges a s c = edges a s d := fun s => iha s fun r hr => h r (by simp [classes, hr])
    have h2 : ∀ s, edges b s c = edges b s d := fun s => ihb s fun r hr => h r (by simp [classes, hr])
    rcases s with _ | x
    · simp only [edges, h1, h2]
    · cases x <;> simp only [edges, h1, h2]
  | diff a b iha ihb =>
    intro s h
    have h1 : ∀ s, edges a s c = edges a s d := fun s => iha s fun r hr => h r (by simp [classes, hr])
    have h2 : ∀ s, edges b s c = edges b s d := fun s => ihb s fun r hr => h r (by simp [classes, hr])
    rcases s with _ | x
    · simp only [edges, h1, h2]
    · cases x <;> simp only [edges, h1, h2]
  | star a iha =>
    intro s h
    have h1 : ∀ s, edges a s c = edges a s d := fun s => iha s fun r hr => h r (by simp [classes, hr])
    rcases s with _ | x <;> simp only [edges, h1]
  | upTo n a iha =>
    intro s h
    have h1 : ∀ s, edges a s c = edges a s d := fun s => iha s fun r hr => h r (by simp [classes, hr])
    rcases s with _ | x
    · simp only [edges, h1]
    · cases x <;> simp only [edges, h1]
  | act e n x a iha =>
    intro s h
    have h1 : ∀ s, edges a s c = edges a s d := fun s => iha s fun r hr => h r (by simp [classes, hr])
    simp only [edges, h1]
  | prio w n v a iha =>
    intro s h
    have h1 : ∀ s, edges a s c = edges a s d := fun s => iha s fun r hr => h r (by simp [classes, hr])
    simp only [edges, h1]

theorem move_congr {c d : UInt8} {e : Exp} (h : ∀ r ∈ classes e, mem c r = mem d r) (s : Config) :
    move e s c = move e s d := by
  have : ∀ x, edges e x c = edges e x d := fun x => edges_congr e x h
  simp only [move, this]

/-- One byte of each class. -/
def reps : List UInt8 :=
  [0, 10, 33, 35, 37, 38, 43, 45, 47, 48, 49, 58, 61, 63, 65, 78, 82, 85, 91, 95, 97, 98, 99, 101, 102, 104, 105, 109,
   110, 112, 114, 115, 116, 117, 126]

/-- The class of each byte, by the number of the byte that stands for it. -/
def repTable : List UInt8 := [
  0, 0, 0, 0, 0, 0, 0, 0, 0, 0, 10, 0, 0, 10, 0, 0, 0, 0, 0, 0, 0, 0, 0, 0, 0, 0, 0, 0, 0, 0, 0, 0, 0, 33, 0, 35,
  33, 37, 38, 33, 33, 33, 33, 43, 33, 45, 33, 47, 48, 49, 49, 49, 49, 49, 49, 49, 49, 49, 58, 33, 0, 61, 0, 63, 33,
  65, 65, 65, 65, 65, 65, 65, 65, 65, 65, 65, 65, 65, 78, 65, 65, 65, 82, 65, 65, 85, 65, 65, 65, 65, 65, 91, 91,
  91, 91, 95, 91, 97, 98, 99, 98, 101, 102, 98, 104, 105, 98, 98, 98, 109, 110, 98, 112, 98, 114, 115, 116, 117,
  98, 98, 98, 98, 98, 0, 0, 0, 126, 0, 0, 0, 0, 0, 0, 0, 0, 0, 0, 0, 0, 0, 0, 0, 0, 0, 0, 0, 0, 0, 0, 0, 0, 0, 0,
  0, 0, 0, 0, 0, 0, 0, 0, 0, 0, 0, 0, 0, 0, 0, 0, 0, 0, 0, 0, 0, 0, 0, 0, 0, 0, 0, 0, 0, 0, 0, 0, 0, 0, 0, 0, 0, 0,
  0, 0, 0, 0, 0, 0, 0, 0, 0, 0, 0, 0, 0, 0, 0, 0, 0, 0, 0, 0, 0, 0, 0, 0, 0, 0, 0, 0, 0, 0, 0, 0, 0, 0, 0, 0, 0, 0,
  0, 0, 0, 0, 0, 0, 0, 0, 0, 0, 0, 0, 0, 0, 0, 0, 0, 0, 0, 0, 0, 0, 0, 0, 0, 0, 0]

/-- The byte that stands for the class of `c`. -/
def rep (c : UInt8) : UInt8 := repTable.getD c.toNat 0

/-! ## The check -/

/-- The states listed for a number. -/
def lookup (n : Nat) : List (Nat × List Config) → List Config
  | [] => []
  | (k, l) :: r => bif Nat.beq n k then l else lookup n r

/-- The transition for one byte. -/
def checkByte (prs : List (Nat × List Config)) (n : Nat) (l : List Wide) (err : List Act) (c : UInt8) : Bool :=
  match moveW l c with
  | some (y, acts) => decide ((tabF n c).2 = acts) && (lookup (tabF n c).1 prs).contains y
  | none => decide (tabF n c = (0, err))

/-- A pair of states. -/
def checkState (e : Exp) (prs : List (Nat × List Config)) (isFail : Bool) (n : Nat) (x : Config) : Bool :=
  reps.all (checkByte prs n (x.flatMap (wide e)) (actsOf .err e x)) &&
  decide (eofTab n = some (Ragel.eofActs e x)) &&
  (match actsOf .to e x with
    | [] => decide (toStateActions[n]? = some 0)
    | [.informalNidMatch] => decide (toStateActions[n]? = some 33)
    | _ => false) &&
  (final e x == Nat.ble firstFinal n) && (isFail == Nat.beq n enFail) && !(Nat.beq n 0)

/-- All states listed for a number. -/
def checkRow (e : Exp) (prs : List (Nat × List Config)) (isFail : Bool) (r : Nat × List Config) : Bool :=
  r.2.all (checkState e prs isFail r.1)

end Urn.Grammar
