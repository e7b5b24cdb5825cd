import Verif.RunBase
/-!
# Where the automaton can write to the buffer: facts about the tables

A classification of the states by what has been read: before the specific string (with the number
of colons read, and after which the string starts), at its beginning, inside it (with the position inside an escape), and after it.
-/
set_option autoImplicit false
namespace Urn
open Tables Spec

/-- Classes of states. -/
inductive Cls where
  | pre (k K : Nat) | ready (k : Nat) | nss (k : Nat) (h : Esc) | post
  deriving DecidableEq, Repr

/-- The class of a state. -/
def cls (cs : Nat) : Cls :=
  bif Nat.blt cs 65 then
    bif Nat.blt cs 1 then .post
    else bif Nat.blt cs 5 then .pre 0 2
    else bif Nat.blt cs 38 then .pre 1 2
    else bif Nat.beq cs 38 then .ready 2
    else bif Nat.beq cs 39 then .nss 2 .hex1
    else bif Nat.beq cs 40 then .nss 2 .hex2
    else bif Nat.blt cs 44 then .pre 1 2
    else bif Nat.blt cs 48 then .pre 0 4
    else bif Nat.blt cs 53 then .pre 1 4
    else bif Nat.blt cs 60 then .pre 2 4
    else .pre 3 4
  else bif Nat.blt cs 120 then
    bif Nat.beq cs 65 then .ready 4
    else bif Nat.beq cs 71 then .nss 4 .hex1
    else bif Nat.beq cs 72 then .nss 4 .hex2
    else bif Nat.blt cs 83 then .nss 4 .plain
    else bif Nat.blt cs 87 then .pre 0 2
    else .pre 1 2
  else
    bif Nat.beq cs 120 then .ready 2
    else bif Nat.beq cs 123 then .nss 2 .hex1
    else bif Nat.beq cs 124 then .nss 2 .hex2
    else bif Nat.blt cs 137 then .post
    else bif Nat.blt cs 172 then .pre 1 2
    else bif Nat.blt cs 174 then .nss 2 .plain
    else bif Nat.blt cs 177 then .nss 4 .plain
    else bif Nat.beq cs 177 then .nss 2 .plain
    else bif Nat.beq cs 181 then .nss 2 .plain
    else .post

/-- Actions that change neither the mark, nor the list of letters, nor the buffer. -/
def quiet : Act → Bool
  | .mark | .tolower | .setNss => false
  | _ => true

/-- Actions that do not write. -/
def noSet : Act → Bool
  | .setNss => false
  | _ => true

/-- Actions that neither write nor collect letters. -/
def noSetLow : Act → Bool
  | .setNss | .tolower => false
  | _ => true

/-- Quiet actions, `set_nss`, quiet actions. -/
def setsOnce : List Act → Bool
  | [] => false
  | .setNss :: as => as.all quiet
  | a :: as => quiet a && setsOnce as

/-- What is needed of a transition. -/
def chk (cs : Nat) (c : UInt8) : Bool :=
  let t := (tabF cs c).1
  let as := (tabF cs c).2
  let d := cls t
  Nat.blt t 194 && match cls cs with
  | .post => as.all noSet && d == .post
  | .pre k K => as.all noSetLow && (d == .post || d == .pre (if c == 58 then k + 1 else k) K || (c == 58 && k + 1 == K && d == .ready K))
  | .ready k =>
      if d == .post then as.all noSet
      else (match as with | .mark :: as => as.all quiet | _ => false) && d == .nss k (Esc.adv .plain c) && c != 63 && c != 35
  | .nss k h =>
      if d == .post then as.all quiet || ((h == .plain) && setsOnce as && (c == 63 || c == 35))
      else d == .nss k (h.adv c) && c != 63 && c != 35 && (h == .plain || isAlnum c) &&
        (if h != .plain && isUpper c then as == [.tolower] else as.all quiet)

/-- What is needed of the actions at the end of the input. -/
def eofChk (cs : Nat) : Bool :=
  match eofTab cs with
  | none => true
  | some as =>
    match cls cs with
    | .nss _ h => as.all quiet || (h == .plain && setsOnce as)
    | _ => as.all noSet

/-- `chk` for twenty consecutive states. -/
def chkBlock (b : Nat) : Bool :=
  (List.finRange 20).all fun i => (List.finRange 256).all fun c => Nat.ble 194 (20 * b + i) || chk (20 * b + i) (UInt8.ofFin c)

theorem chk_0 : chkBlock 0 = true := by decide +kernel
theorem chk_1 : chkBlock 1 = true := by decide +kernel
theorem chk_2 : chkBlock 2 = true := by decide +kernel
theorem chk_3 : chkBlock 3 = true := by decide +kernel
theorem chk_4 : chkBlock 4 = true := by decide +kernel
theorem chk_5 : chkBlock 5 = true := by decide +kernel
theorem chk_6 : chkBlock 6 = true := by decide +kernel
theorem chk_7 : chkBlock 7 = true := by decide +kernel
theorem chk_8 : chkBlock 8 = true := by decide +kernel
theorem chk_9 : chkBlock 9 = true := by decide +kernel

theorem chkBlock_all : ∀ b : Fin 10, chkBlock b = true
  | 0 => chk_0 | 1 => chk_1 | 2 => chk_2 | 3 => chk_3 | 4 => chk_4
  | 5 => chk_5 | 6 => chk_6 | 7 => chk_7 | 8 => chk_8 | 9 => chk_9

theorem chk_all (cs : Fin 194) (c : Fin 256) : chk cs (UInt8.ofFin c) = true := by
  have h := chkBlock_all ⟨cs / 20, by omega⟩
  simp only [chkBlock, List.all_eq_true, List.mem_finRange, forall_const] at h
  have h1 := h ⟨cs % 20, by omega⟩ c
  have e : 20 * (cs.val / 20) + cs.val % 20 = cs.val := by omega
  simp only [e] at h1
  have h2 : Nat.ble 194 cs.val = false := by
    cases hb : Nat.ble 194 cs.val with
    | false => rfl
    | true => exact absurd (Nat.le_of_ble_eq_true hb) (by omega)
  rw [h2, Bool.false_or] at h1
  exact h1

theorem eofChk_all : ∀ cs : Fin 194, eofChk cs = true := by decide +kernel
end Urn
