import Verif.ToolRun3
import Verif.PropsTools
/-!
# Runs of the text of the tools
-/
set_option autoImplicit false
set_option linter.unusedSimpArgs false
namespace Urn.ToolLang
open SpecTools Tools

/-- The text of `tools/removecomments/removecomments.go`. -/
abbrev removecomments : List String := ToolSource.removecommentsGo
/-- The text of `tools/snake2camel/snake2camel.go`. -/
abbrev snake2camelTool : List String := ToolSource.snake2camelGo

/-- The program of the text, run in `S`, ends with this exit code, and these are the files that it reads and writes and
what it prints, in this order. -/
def Runs (lines : List String) (S : Sys) (code : Int) (w : List Event) : Prop :=
  ∃ N, ∀ n, N ≤ n → runProgram lines S n = .ok (code, w)

/-- What a user sees on standard error. -/
def errorLine (msg : Bytes) : Event := .stderr (lit "error: " ++ msg ++ lit "\n\n")

theorem errorLine_eq (m : Bytes) : errorLine m = .stderr (errorText m) := rfl

/-! ## From the text to the model -/

theorem rc_runs (S : Sys) : Runs removecomments S (mainRun S removeComments).1 (mainRun S removeComments).2 := by
  refine ⟨3, fun n hn => ?_⟩
  obtain ⟨k, rfl⟩ := Nat.exists_eq_add_of_le hn
  have h := rcMain_run S k
  rw [Nat.add_comm 3 k]
  unfold runProgram
  rw [rc_parse]
  simp only [rc_decls, show findFn rcProg "main" = some rcMain from rfl]
  revert h
  cases callN rcProg S (k + 3) [] rcMain.body [] <;> simp only [exitOf] <;> intro h <;> exact h

/-- What snake2camel makes of a text. -/
noncomputable def camel (t : Bytes) : Bytes := (C52_terminates (fuel := t.count 95 + 2) t (Nat.le_refl _)).choose

theorem camel_eq {t : Bytes} {k : Nat} (h : t.count 95 + 2 ≤ k) : snake2camel k t = .ok (camel t) := by
  obtain ⟨r, hr⟩ := C52_terminates (fuel := k) t h
  rw [hr, C52_fuel hr (C52_terminates (fuel := t.count 95 + 2) t (Nat.le_refl _)).choose_spec]; rfl

theorem camel_spec (t : Bytes) : Linewise (fun l l' => Steps l l' ∧ ¬ HasSnake l') (lines t) (lines (camel t)) :=
  (C52_exact (Nat.le_refl _)).1 (camel_eq (Nat.le_refl _))

theorem camel_unique {t r : Bytes} (h : Linewise (fun l l' => Steps l l' ∧ ¬ HasSnake l') (lines t) (lines r)) : r = camel t := by
  have := ((C52_exact (Nat.le_refl (t.count 95 + 2))).2 h).symm.trans (camel_eq (Nat.le_refl _))
  injection this

theorem sc_runs (S : Sys) : Runs snake2camelTool S (mainRun S camel).1 (mainRun S camel).2 := by
  have key : ∃ N, 6 ≤ N ∧ ∀ n, N ≤ n → ∀ p c, S.read p = .ok c → p ∈ S.args → ∃ k, k ≤ n + 1 ∧ snake2camel k c = .ok (camel c) := by
    have : ∀ ps : List Bytes, ∃ N, 6 ≤ N ∧ ∀ n, N ≤ n → ∀ p c, S.read p = .ok c → p ∈ ps →
        ∃ k, k ≤ n + 1 ∧ snake2camel k c = .ok (camel c) := by
      intro ps
      induction ps with
      | nil => exact ⟨6, Nat.le_refl _, fun _ _ _ _ _ h => by cases h⟩
      | cons q ps ih =>
        obtain ⟨N, h6, hN⟩ := ih
        refine ⟨N + (match S.read q with | .ok c => c.count 95 | .error _ => 0) + 2, by omega, fun n hn p c hc hp => ?_⟩
        rcases List.mem_cons.1 hp with rfl | hp
        · rw [hc] at hn
          simp only at hn
          exact ⟨c.count 95 + 2, by omega, camel_eq (Nat.le_refl _)⟩
        · exact hN n (by omega) p c hc hp
    exact this S.args
  obtain ⟨N, h6, hN⟩ := key
  refine ⟨N + 4, fun n hn => ?_⟩
  obtain ⟨k, rfl⟩ := Nat.exists_eq_add_of_le hn
  have h := scMain_run S (N + k) (by omega) camel (hN (N + k) (by omega))
  rw [show N + 4 + k = N + k + 4 by omega]
  unfold runProgram
  rw [sc_parse]
  simp only [sc_decls, show findFn scProg "main" = some scMain from rfl]
  revert h
  cases callN scProg S (N + k + 4) [] scMain.body [] <;> simp only [exitOf] <;> intro h <;> exact h

/-- A file system with one file, and a program that is called with its path. -/
def oneFile (prog path content : Bytes) : Sys where
  args := [prog, path]
  read := fun p => if p = path then .ok content else .error (lit "open " ++ p ++ lit ": no such file or directory")
  write := fun _ _ => none

/-- The text of removecomments on the text of a file. -/
theorem removecomments_file {prog p c : Bytes} :
    Runs removecomments (oneFile prog p c) 0 [.readFile p, .writeFile p (removeComments c)] := by
  have := rc_runs (oneFile prog p c)
  simpa [mainRun, fileRun, oneFile] using this

theorem snake2camel_file {prog p c : Bytes} :
    Runs snake2camelTool (oneFile prog p c) 0 [.readFile p, .writeFile p (camel c)] := by
  have := sc_runs (oneFile prog p c)
  simpa [mainRun, fileRun, oneFile] using this

end Urn.ToolLang
