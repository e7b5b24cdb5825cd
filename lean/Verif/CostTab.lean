import Verif.Cost
import Verif.WriteInv
import Verif.RagelSim
/-!
# Bounds on the work of a run: facts about the tables

Every copy is paid for by going down in a ranking of the states, except the copies of the
r-component made at question marks, which are paid for by the question marks.
-/
set_option autoImplicit false
namespace Urn
open Tables Spec

/-! ## Tables -/

/-- Copies made by an action, in units of a bound on the length of the input and of the list of
letters. -/
def wt : Act → Nat
  | .setPre | .setNid | .setScimType | .setScimName | .setScimOther | .setRComponent | .setQComponent | .setFComponent => 1
  | .setNss => 4
  | _ => 0

/-- Entries appended by an action. -/
def lw : Act → Nat
  | .tolower => 1
  | _ => 0

def wts : List Act → Nat
  | [] => 0
  | a :: as => wt a + wts as

def lws : List Act → Nat
  | [] => 0
  | a :: as => lw a + lws as

/-- The states of the automaton for RFC 8141. -/
def in8141 (cs : Nat) : Bool :=
  bif Nat.blt cs 83 then false else bif Nat.blt cs 172 then true else bif Nat.blt cs 177 then false else Nat.blt cs 193

/-- The most copies that can be made from a state on, not counting those made at question marks. -/
def rank (cs : Nat) : Nat :=
  bif Nat.blt cs 83 then
    bif Nat.blt cs 44 then
      bif Nat.blt cs 1 then 0 else bif Nat.blt cs 5 then 6 else bif Nat.blt cs 38 then 5 else bif Nat.blt cs 41 then 4 else 5
    else bif Nat.blt cs 48 then 9 else bif Nat.blt cs 65 then 8 else bif Nat.blt cs 69 then 7
      else bif Nat.blt cs 70 then 6 else bif Nat.blt cs 73 then 5 else 7
  else bif Nat.blt cs 137 then
    bif Nat.blt cs 87 then 8 else bif Nat.blt cs 88 then 7 else bif Nat.blt cs 120 then 6 else bif Nat.blt cs 121 then 5
      else bif Nat.blt cs 123 then 1 else bif Nat.blt cs 125 then 5 else 2
  else bif Nat.blt cs 167 then 6 else bif Nat.blt cs 170 then 7 else bif Nat.blt cs 172 then 6 else bif Nat.blt cs 174 then 4
    else bif Nat.blt cs 175 then 6 else bif Nat.blt cs 178 then 5 else bif Nat.blt cs 181 then 1 else bif Nat.blt cs 182 then 5
    else bif Nat.blt cs 193 then 2 else 0

/-- What is needed of a transition. -/
def costChk (cs : Nat) (c : UInt8) : Bool :=
  (fun x : Nat × List Act =>
    Nat.blt x.1 194 && Nat.ble (lws x.2) 1 &&
    Nat.ble (wts x.2 + rank x.1) (rank cs + bif in8141 cs && (c == 63) then 1 else 0) &&
    (!in8141 x.1 || in8141 cs)) (tabF cs c)

/-- What is needed of the actions at the end of the input. -/
def costEof (cs : Nat) : Bool :=
  match eofTab cs with
  | none => true
  | some as => Nat.ble (lws as) 1 && Nat.ble (wts as) (rank cs)

/-- `costChk` for all states and the representatives of the classes of bytes. -/
theorem cost_reps : ((List.range 194).all fun cs => Grammar.reps.all fun c => costChk cs c) = true := by
  decide +kernel

theorem rep_63 : ∀ c : UInt8, (c == 63) = (Grammar.rep c == 63) := by
  intro c
  exact eq_of_beq (Grammar.all_bytes (f := fun c => (c == 63) == (Grammar.rep c == 63)) (by decide +kernel) c)

theorem costChk_all {cs : Nat} (h : cs < 194) (c : UInt8) : costChk cs c = true := by
  have h1 := List.all_eq_true.mp (List.all_eq_true.mp cost_reps cs (by simpa using h)) _ (Grammar.rep_mem' c)
  simp only [costChk, ← rep_63, ← Grammar.rep_tab h] at h1 ⊢
  exact h1

theorem costEof_all : ∀ cs : Fin 194, costEof cs = true := by decide +kernel

end Urn
