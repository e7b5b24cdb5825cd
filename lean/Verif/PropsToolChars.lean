import Verif.ToolChars
/-!
# Properties of the tools on texts of characters
-/
set_option autoImplicit false
namespace Urn.ToolLang
open SpecTools Tools

/-! ## C71: characters outside of ASCII -/

/-- removecomments does not cut characters: run on a file that is the UTF-8 encoding of some characters, it writes the encoding
of these characters without some of them. -/
theorem C71_removecomments (a p : Bytes) (t : List Char) :
    ∃ u : List Char, u.Sublist t ∧ Runs removecomments (oneFile a p (utf8 t)) 0 [.readFile p, .writeFile p (utf8 u)] := by
  obtain ⟨u, h1, h2⟩ := kept_chars (lines_isLines (utf8 t)) (lines_flatten (utf8 t)).symm
  refine ⟨u, h1, ?_⟩
  rw [h2, ← removeComments_eq]
  exact removecomments_file

/-- snake2camel leaves all characters outside of ASCII as they are, in number and order, and writes valid UTF-8. -/
theorem C71_snake2camel (a p : Bytes) (t : List Char) :
    ∃ u : List Char, u.filter (fun c => decide (128 ≤ c.toNat)) = t.filter (fun c => decide (128 ≤ c.toNat)) ∧
      Runs snake2camelTool (oneFile a p (utf8 t)) 0 [.readFile p, .writeFile p (utf8 u)] := by
  obtain ⟨u, h1, h2⟩ := squeezed_chars (C52_squeezed (camel_eq (t := utf8 t) (Nat.le_refl _))) (b := []) (by simp) rfl
  refine ⟨u, h2, ?_⟩
  rw [List.nil_append] at h1
  rw [← h1]
  exact snake2camel_file

/-- A file with characters outside of ASCII in the comment, before it and after it. -/
example : utf8 "é\n//line ü\nst_ß_1\n".toList = [0xC3, 0xA9] ++ lit "\n//line " ++ [0xC3, 0xBC] ++ lit "\nst_" ++ [0xC3, 0x9F] ++ lit "_1\n" := by
  decide +kernel
example : kept (lines (utf8 "é\n//line ü\nst_ß_1\n".toList)) = [utf8 "é\n".toList, utf8 "st_ß_1\n".toList] := by decide +kernel

end Urn.ToolLang
