import Verif.RagelAux
/-!
# The check of the pairs of states for `rfc8141_only`, parts 7 to 11
-/
set_option autoImplicit false
namespace Urn.Grammar
open Ragel Tables

theorem check_8141_7 : rfc8141OnlyPairs7.all (checkRow rfc8141OnlyExp rfc8141OnlyPairs false) = true := by
  decide +kernel
theorem check_8141_8 : rfc8141OnlyPairs8.all (checkRow rfc8141OnlyExp rfc8141OnlyPairs false) = true := by
  decide +kernel
theorem check_8141_9 : rfc8141OnlyPairs9.all (checkRow rfc8141OnlyExp rfc8141OnlyPairs false) = true := by
  decide +kernel
theorem check_8141_10 : rfc8141OnlyPairs10.all (checkRow rfc8141OnlyExp rfc8141OnlyPairs false) = true := by
  decide +kernel
theorem check_8141_11 : rfc8141OnlyPairs11.all (checkRow rfc8141OnlyExp rfc8141OnlyPairs false) = true := by
  decide +kernel

end Urn.Grammar
