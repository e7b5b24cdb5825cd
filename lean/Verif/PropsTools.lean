import Verif.ToolsAux
/-!
# Properties of the tools that post-process the generated parser
-/
set_option autoImplicit false
namespace Urn.Tools
open SpecTools

/-! ## C51: removecomments -/

/-- The lines of the result are the lines of the file, in order, without the `//line` comment lines and without
the blank lines directly before them. -/
theorem C51_exact (t : Bytes) : lines (removeComments t) = kept (lines t) := by
  rw [removeComments_eq, lines_of (kept_isLines (lines_isLines t))]

/-- The unit test of the tool. -/
example : removeComments (lit "//line this should be deleted\n\nThis is a test file\n\nit would contain go code\n\n// and comments\n    // and comments after spaces\n\t\t// and comments after tabs\n//line but not this comment\n    //line or this one after spaces\n\t\t//line or this one after tabs\n\nand that is all\n//line this should be deleted") =
    lit "\nThis is a test file\n\nit would contain go code\n\n// and comments\n    // and comments after spaces\n\t\t// and comments after tabs\n\nand that is all\n" := by
  rw [removeComments_eq]; decide +kernel

/-- No comment line is left. -/
theorem C51_no_comment (t : Bytes) : ∀ l ∈ lines (removeComments t), isComment l = false := by
  rw [C51_exact]; exact kept_not_comment _

/-- All lines that are neither comment lines nor blank are kept, unchanged and in order, and nothing else is in
the result but blank lines. -/
theorem C51_code_kept (t : Bytes) :
    (lines (removeComments t)).filter (fun l => !isBlank l) = (lines t).filter fun l => !isComment l && !isBlank l := by
  rw [C51_exact]; exact kept_filter _

/-- A file without comment lines is unchanged; in particular a second run changes nothing. -/
theorem C51_unchanged {t : Bytes} (h : ∀ l ∈ lines t, isComment l = false) : removeComments t = t := by
  rw [removeComments_eq, kept_same h, lines_flatten]

example : removeComments (lit "a\n\n// line\n/ /line") = lit "a\n\n// line\n/ /line" := C51_unchanged (by decide)

theorem C51_idempotent (t : Bytes) : removeComments (removeComments t) = removeComments t :=
  C51_unchanged (C51_no_comment t)

/-- What the comment in the source says would be that only comment lines are removed.  That is so exactly if no
blank line stands directly before a comment line. -/
theorem C51_only_comments {t : Bytes} :
    lines (removeComments t) = (lines t).filter (fun l => !isComment l) ↔
      ∀ a l b, lines t = a ++ l :: b → isBlank l = true → commentNext b = false := by
  rw [C51_exact]
  generalize lines t = L
  induction L with
  | nil => simp [kept]
  | cons l ls ih =>
    have hle : ∀ L : List Bytes, (kept L).length ≤ (L.filter fun l => !isComment l).length := by
      intro L
      induction L with
      | nil => simp [kept]
      | cons l ls ih =>
        rw [kept, List.filter_cons]
        cases hc : isComment l
        · simp only [Bool.false_or, Bool.not_false, if_true]
          split
          · simp only [List.length_cons]; omega
          · simp only [List.length_cons]; omega
        · simpa [hc] using ih
    have key : (∀ a k b, l :: ls = a ++ k :: b → isBlank k = true → commentNext b = false) ↔
        (isBlank l = true → commentNext ls = false) ∧ ∀ a k b, ls = a ++ k :: b → isBlank k = true → commentNext b = false := by
      constructor
      · intro h
        exact ⟨h [] l ls rfl, fun a k b e => h (l :: a) k b (by rw [e]; rfl)⟩
      · rintro ⟨h1, h2⟩ a k b e
        cases a with
        | nil => simp only [List.nil_append, List.cons.injEq] at e; obtain ⟨rfl, rfl⟩ := e; exact h1
        | cons d a => simp only [List.cons_append, List.cons.injEq] at e; exact h2 a k b e.2
    rw [key, ← ih, kept, List.filter_cons]
    cases hc : isComment l
    · simp only [Bool.false_or, Bool.not_false, if_true]
      cases hb : isBlank l
      · simp
      · cases hn : commentNext ls
        · simp
        · simp only [Bool.and_self, if_true]
          constructor
          · intro h
            have h1 := hle ls
            rw [h] at h1
            simp only [List.length_cons] at h1
            omega
          · rintro ⟨h, _⟩; exact absurd (h trivial) (by decide)
    · have hb : isBlank l = false := by
        cases hb : isBlank l
        · rfl
        · rw [blank_not_comment hb] at hc; exact absurd hc (by decide)
      simp [hb]

/-- Without blank lines before comments; with one it is not so (C51_refuted). -/
example : lines (removeComments (lit "a\n//line 1\nb")) = (lines (lit "a\n//line 1\nb")).filter fun l => !isComment l := by
  refine C51_only_comments.mpr fun a l b e hl => ?_
  exfalso
  have h : ∀ x ∈ lines (lit "a\n//line 1\nb"), isBlank x = false := by decide
  rw [h l (by rw [e]; simp)] at hl
  simp at hl

/-- Lines that are not comment lines can be lost: the blank lines before a comment. -/
theorem C51_refuted : ¬ ∀ t, lines (removeComments t) = (lines t).filter fun l => !isComment l := by
  intro h
  have := h (lit "package urn\n\n//line machine.go.rl:1\n")
  rw [C51_exact] at this
  exact absurd this (by decide)

/-! ## C52: snake2camel -/

/-- The tool ends, for every file: at most one round for each underscore, and two more tests of the loop. -/
theorem C52_terminates {fuel : Nat} (t : Bytes) (h : t.count 95 + 2 ≤ fuel) : ∃ r, snake2camel fuel t = .ok r := by
  obtain ⟨r, hr, _⟩ := snake2camel_done h
  exact ⟨r, hr⟩

example : ∃ r, snake2camel 4 (lit "st_case_1") = .ok r := C52_terminates _ (by decide)

/-- The result, exactly: line by line, underscores between a lower case letter (then maybe digits) and a letter or
digit are removed, the last one of the line first, until there is none; the character that follows is put in upper
case. -/
theorem C52_exact {fuel : Nat} {t r : Bytes} (hf : t.count 95 + 2 ≤ fuel) :
    snake2camel fuel t = .ok r ↔ Linewise (fun l l' => Steps l l' ∧ ¬ HasSnake l') (lines t) (lines r) := by
  constructor
  · exact snake2camel_eq
  · intro h
    obtain ⟨r', h1, h2⟩ := snake2camel_done hf
    have := congrArg List.flatten (linewise_unique h h2)
    rw [lines_flatten, lines_flatten] at this
    rw [this]; exact h1

example : Linewise (fun l l' => Steps l l' ∧ ¬ HasSnake l') (lines (lit "st_case_1")) (lines (lit "stCase1")) :=
  (C52_exact (fuel := 4) (by decide)).mp (by decide +kernel)

/-- How long it is run does not matter. -/
theorem C52_fuel {f g : Nat} {t r s : Bytes} (h1 : snake2camel f t = .ok r) (h2 : snake2camel g t = .ok s) : r = s := by
  have h3 : snake2camel (f + g) t = .ok r := loop_mono h1
  have h4 : snake2camel (g + f) t = .ok s := loop_mono h2
  rw [Nat.add_comm g f, h3] at h4
  cases h4; rfl

example {g : Nat} {s : Bytes} (h : snake2camel g (lit "st_case_1") = .ok s) : s = lit "stCase1" :=
  C52_fuel h (f := g) (g := 4) (by decide +kernel)

/-- The unit tests of the tool. -/
example : snake2camel 10 (lit "const start int = 1") = .ok (lit "const start int = 1") := by decide +kernel
example : snake2camel 10 (lit "const en_urn int = 5\n\tconst en_scim int = 44\n\tconst en_fail int = 81\n\tconst en_main int = 1") =
    .ok (lit "const enUrn int = 5\n\tconst enScim int = 44\n\tconst enFail int = 81\n\tconst enMain int = 1") := by decide +kernel
example : snake2camel 10 (lit "if (m.p) == (m.pe) {\n\t\tgoto _test_eof\n\t}\n\tswitch m.cs {\n\tcase 1:\n\t\tgoto st_case_1\n\t}") =
    .ok (lit "if (m.p) == (m.pe) {\n\t\tgoto _testEof\n\t}\n\tswitch m.cs {\n\tcase 1:\n\t\tgoto stCase1\n\t}") := by decide +kernel

/-- Nothing is left to rewrite. -/
theorem C52_no_snake {fuel : Nat} {t r : Bytes} (h : snake2camel fuel t = .ok r) : ¬ HasSnake r := by
  intro hs
  rw [← lines_flatten r] at hs
  obtain ⟨l, hl, hs⟩ := (hasSnake_flatten (lines_isLines r)).mp hs
  obtain ⟨k, _, hk⟩ := linewise_mem (snake2camel_eq h) hl
  exact hk.2 hs

example : ¬ HasSnake (lit "stCase1") := C52_no_snake (fuel := 4) (t := lit "st_case_1") (by decide +kernel)

/-- A text with nothing to rewrite is unchanged; in particular a second run changes nothing. -/
theorem C52_unchanged {fuel : Nat} {t r : Bytes} (hs : ¬ HasSnake t) (h : snake2camel fuel t = .ok r) : r = t := by
  have hd : Linewise Done (lines t) (lines t) := by
    refine linewise_refl fun l hl => ⟨.refl, fun hs' => hs ?_⟩
    rw [← lines_flatten t]
    exact (hasSnake_flatten (lines_isLines t)).mpr ⟨l, hl, hs'⟩
  have := congrArg List.flatten (linewise_unique (snake2camel_eq h) hd)
  rwa [lines_flatten, lines_flatten] at this

example {fuel : Nat} {r : Bytes} (h : snake2camel fuel (lit "_Foo") = .ok r) : r = lit "_Foo" :=
  C52_unchanged (C52_no_snake (fuel := 4) (t := lit "_Foo") (by decide +kernel)) h

theorem C52_idempotent {f g : Nat} {t r s : Bytes} (h1 : snake2camel f t = .ok r) (h2 : snake2camel g r = .ok s) : s = r :=
  C52_unchanged (C52_no_snake h1) h2

example : snake2camel 4 (lit "stCase1") = .ok (lit "stCase1") := by
  obtain ⟨s, hs⟩ := C52_terminates (fuel := 4) (lit "stCase1") (by decide)
  rw [hs, C52_idempotent (f := 4) (t := lit "st_case_1") (by decide +kernel) hs]

/-- Nothing else is changed: some underscores are removed, each before a letter or digit, which is put in upper
case. -/
theorem C52_squeezed {fuel : Nat} {t r : Bytes} (h : snake2camel fuel t = .ok r) : Squeezed t r := by
  have := linewise_squeezed (snake2camel_eq h)
  rwa [lines_flatten, lines_flatten] at this

example : Squeezed (lit "st_case_1") (lit "stCase1") := C52_squeezed (fuel := 9) (by decide +kernel)

/-- Different names can become the same name. -/
theorem C52_refuted : ¬ ∀ (f g : Nat) (t u r : Bytes), snake2camel f t = .ok r → snake2camel g u = .ok r → t = u := by
  intro h
  exact absurd (h 9 9 (lit "a_b") (lit "aB") (lit "aB") (by decide +kernel) (by decide +kernel)) (by decide)

/-- The makefile runs removecomments, then snake2camel: the result has no comment lines and nothing to rewrite, so
that running both again changes nothing. -/
theorem C52_pipeline {f g : Nat} {t r s : Bytes} (h : snake2camel f (removeComments t) = .ok r) :
    (∀ l ∈ lines r, isComment l = false) ∧ ¬ HasSnake r ∧ removeComments r = r ∧
      (snake2camel g (removeComments r) = .ok s → s = r) := by
  have hc : ∀ l ∈ lines r, isComment l = false := by
    intro l hl
    obtain ⟨k, hk, hd⟩ := linewise_mem (snake2camel_eq h) hl
    cases he : isComment l
    · rfl
    · have := squeezed_comment (steps_squeezed hd.1) he
      rw [C51_no_comment t k hk] at this
      exact absurd this (by decide)
  have hr := C51_unchanged hc
  refine ⟨hc, C52_no_snake h, hr, fun hs => ?_⟩
  rw [hr] at hs
  exact C52_unchanged (C52_no_snake h) hs

example {g : Nat} {s : Bytes} : snake2camel g (removeComments (lit "goto st1\n")) = .ok s → s = lit "goto st1\n" :=
  (C52_pipeline (f := 9) (t := lit "//line x_y\ngoto st_1\n") (by rw [removeComments_eq]; decide +kernel)).2.2.2

example : snake2camel 9 (removeComments (lit "//line x_y\ngoto st_1\n")) = .ok (lit "goto st1\n") := by
  rw [removeComments_eq]; decide +kernel

/-! ## C53: the file that is rewritten -/

/-- After a complete run the file holds the result. -/
theorem C53_complete {tool : Bytes → Run Bytes} {old new : Bytes} {ops : List FileOp} (ht : tool old = .ok new)
    (h : Rewrites tool old ops) : contents old ops = new := by
  obtain ⟨n, hn, ws, hw, rfl⟩ := h
  rw [ht] at hn
  cases hn
  have : contents old (.truncate :: ws.map .write) = contents [] (ws.map .write) := rfl
  rw [this, contents_write, hw]; rfl

/-- A run of snake2camel that writes in two pieces. -/
example : contents (lit "st_1") [.truncate, .write (lit "s"), .write (lit "t1")] = lit "st1" :=
  C53_complete (tool := snake2camel 4) (by decide +kernel) ⟨_, by decide +kernel, [lit "s", lit "t1"], rfl, rfl⟩

/-- At any moment during a run, and hence if it is killed, the file holds the old text or a beginning of the
result. -/
theorem C53_crash {tool : Bytes → Run Bytes} {old new : Bytes} {ops : List FileOp} (ht : tool old = .ok new)
    (h : Rewrites tool old ops) {done rest : List FileOp} (e : ops = done ++ rest) :
    (done = [] ∧ contents old done = old) ∨ ∃ lost, new = contents old done ++ lost := by
  obtain ⟨n, hn, ws, hw, rfl⟩ := h
  rw [ht] at hn
  cases hn
  cases done with
  | nil => exact .inl ⟨rfl, rfl⟩
  | cons o done =>
    right
    simp only [List.cons_append, List.cons.injEq] at e
    obtain ⟨rfl, e⟩ := e
    obtain ⟨w1, w2, rfl, rfl, rfl⟩ := List.map_eq_append_iff.mp e
    refine ⟨w2.flatten, ?_⟩
    have : contents old (.truncate :: w1.map .write) = contents [] (w1.map .write) := rfl
    rw [this, contents_write, ← hw]; simp

example : ∃ lost, lit "st1" = contents (lit "st_1") [.truncate, .write (lit "s")] ++ lost :=
  (C53_crash (tool := snake2camel 4) (done := [.truncate, .write (lit "s")]) (rest := [.write (lit "t1")]) (by decide +kernel)
    ⟨_, by decide +kernel, [lit "s", lit "t1"], rfl, rfl⟩ rfl).resolve_left (by simp)

/-- Each beginning of the result, the empty one included, can be what is left. -/
theorem C53_any_prefix {tool : Bytes → Run Bytes} {old a b : Bytes} (ht : tool old = .ok (a ++ b)) :
    ∃ done rest, Rewrites tool old (done ++ rest) ∧ contents old done = a := by
  refine ⟨[.truncate, .write a], [.write b], ⟨a ++ b, ht, [a, b], by simp, rfl⟩, ?_⟩
  simp [contents, FileOp.apply]

example : ∃ done rest, Rewrites (snake2camel 4) (lit "st_1") (done ++ rest) ∧ contents (lit "st_1") done = [] :=
  C53_any_prefix (a := []) (b := lit "st1") (by decide +kernel)

/-- So it is not the case that a killed run leaves either the old text or the result. -/
theorem C53_refuted : ¬ ∀ (old : Bytes) (done rest : List FileOp),
    Rewrites (fun t => .ok (removeComments t)) old (done ++ rest) →
      contents old done = old ∨ contents old done = removeComments old := by
  intro h
  have hr : removeComments (lit "//line\npackage urn\n") = lit "package urn\n" := by
    rw [removeComments_eq]; decide +kernel
  have := h (lit "//line\npackage urn\n") [.truncate] [.write (lit "package urn\n")] ⟨_, rfl, [lit "package urn\n"], by rw [hr]; rfl, rfl⟩
  rw [hr] at this
  exact absurd this (by decide)

end Urn.Tools
