import Verif.GoCheck
import Verif.GoClientFns
/-!
# The functions of the checks
-/
set_option autoImplicit false
set_option linter.unusedSimpArgs false
set_option maxRecDepth 10000000
namespace Urn.GoLang

def checkC : List (List Nat) := codes% checkGo
def checkAst : List Decl := ast% checkC
theorem check_parse : parseFile checkGo = some checkAst :=
  parseFile_eq (c := checkC) (by kernel_rfl) (by decide +kernel) (by kernel_rfl)

/-- The program of the checks. -/
def tprog : Prog := (addDecls {} checkAst).getD {}
theorem tprog_eq : addDecls {} checkAst = some tprog := by kernel_rfl

theorem isProgram_check : IsProgram [checkGo] tprog := by
  refine ⟨[checkAst], by simp only [List.mapM_cons, List.mapM_nil, check_parse]; rfl, ?_⟩
  rw [List.flatten_cons, List.flatten_nil, List.append_nil]
  exact tprog_eq

theorem check_eq {C : Prog} (h : IsProgram [checkGo] C) : C = tprog := by
  obtain ⟨ds, h1, h2⟩ := h
  obtain ⟨ds', h1', h2'⟩ := isProgram_check
  rw [h1] at h1'
  cases h1'
  rw [h2] at h2'
  cases h2'
  rfl

def tfn (f : String) : Fn := (findFn tprog none f).getD ⟨none, "", [], [], .nil⟩

end Urn.GoLang
