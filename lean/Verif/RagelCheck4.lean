import Verif.RagelAux
/-!
# The check of the classes of bytes in the tables of machine.go
-/
set_option autoImplicit false
namespace Urn.Grammar
open Ragel Tables

/-- The bytes of a class are alike in a state of machine.go. -/
def repRow (n : Nat) : Bool :=
  (List.range 256).all fun i => Nat.beq (trOfF n (UInt8.ofNat i)) (trOfF n (rep (UInt8.ofNat i)))

theorem rep_tab_0 : (List.range' 0 25).all repRow = true := by decide +kernel
theorem rep_tab_25 : (List.range' 25 25).all repRow = true := by decide +kernel
theorem rep_tab_50 : (List.range' 50 25).all repRow = true := by decide +kernel
theorem rep_tab_75 : (List.range' 75 25).all repRow = true := by decide +kernel
theorem rep_tab_100 : (List.range' 100 25).all repRow = true := by decide +kernel
theorem rep_tab_125 : (List.range' 125 25).all repRow = true := by decide +kernel
theorem rep_tab_150 : (List.range' 150 25).all repRow = true := by decide +kernel
theorem rep_tab_175 : (List.range' 175 19).all repRow = true := by decide +kernel

end Urn.Grammar
