import Verif.RagelAux
/-!
# The check of the pairs of states for `main`, `scim_only` and `fail`, and of the classes of bytes in the grammar
-/
set_option autoImplicit false
namespace Urn.Grammar
open Ragel Tables

theorem exp_main : Inst.exp .main = mainExp := by rfl
theorem exp_scimOnly : Inst.exp .scimOnly = scimOnlyExp := by rfl
theorem exp_rfc8141Only : Inst.exp .rfc8141Only = rfc8141OnlyExp := by rfl
theorem exp_fail : Inst.exp .fail = failExp := by rfl

theorem check_main : mainPairs.all (checkRow mainExp mainPairs false) = true := by decide +kernel
theorem check_scimOnly : scimOnlyPairs.all (checkRow scimOnlyExp scimOnlyPairs false) = true := by decide +kernel
theorem check_fail : failPairs.all (checkRow failExp failPairs true) = true := by decide +kernel

theorem rep_mem : (List.range 256).all (fun i => reps.contains (rep (UInt8.ofNat i))) = true := by decide +kernel
/-- The bytes of a class are alike in an expression. -/
def repExp (e : Exp) : Bool :=
  (List.range 256).all fun i => (classes e).all fun r => mem (UInt8.ofNat i) r == mem (rep (UInt8.ofNat i)) r

theorem rep_main : repExp mainExp = true := by decide +kernel
theorem rep_scimOnly : repExp scimOnlyExp = true := by decide +kernel
theorem rep_rfc8141Only : repExp rfc8141OnlyExp = true := by decide +kernel
theorem rep_fail : repExp failExp = true := by decide +kernel

end Urn.Grammar
