import Verif.RagelAux
/-!
# The check of the pairs of states for `rfc8141_only`, parts 1 to 6
-/
set_option autoImplicit false
namespace Urn.Grammar
open Ragel Tables

theorem check_8141_1 : rfc8141OnlyPairs1.all (checkRow rfc8141OnlyExp rfc8141OnlyPairs false) = true := by
  decide +kernel
theorem check_8141_2 : rfc8141OnlyPairs2.all (checkRow rfc8141OnlyExp rfc8141OnlyPairs false) = true := by
  decide +kernel
theorem check_8141_3 : rfc8141OnlyPairs3.all (checkRow rfc8141OnlyExp rfc8141OnlyPairs false) = true := by
  decide +kernel
theorem check_8141_4 : rfc8141OnlyPairs4.all (checkRow rfc8141OnlyExp rfc8141OnlyPairs false) = true := by
  decide +kernel
theorem check_8141_5 : rfc8141OnlyPairs5.all (checkRow rfc8141OnlyExp rfc8141OnlyPairs false) = true := by
  decide +kernel
theorem check_8141_6 : rfc8141OnlyPairs6.all (checkRow rfc8141OnlyExp rfc8141OnlyPairs false) = true := by
  decide +kernel

end Urn.Grammar
