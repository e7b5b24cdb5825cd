import Verif.ToolRun2
/-!
# What the text of the tools does: snake2camel, the rounds and the program
-/
set_option autoImplicit false
set_option linter.unusedSimpArgs false
namespace Urn.ToolLang
open GoLang (bytesOf)
open Regex Tools

/-- Expressions without groups have matches without groups. -/
theorem plus_groups {p : UInt8 → Bool} {prev : Option UInt8} {s : Bytes} {y : Found} (h : y ∈ (Re.plus p).run prev s) :
    y.groups = [] := by
  simp only [Re.plus, Re.run, List.mem_flatMap, List.mem_map] at h
  obtain ⟨x, hx, z, ⟨u, _, rfl⟩, rfl⟩ := h
  cases s with
  | nil => simp at hx
  | cons c t =>
    simp only at hx
    split at hx <;> simp at hx
    subst hx; rfl

theorem cls_groups {p : UInt8 → Bool} {prev : Option UInt8} {s : Bytes} {y : Found} (h : y ∈ (Re.cls p).run prev s) :
    ∃ c, p c = true ∧ y.text = [c] ∧ y.groups = [] := by
  cases s with
  | nil => simp [Re.run] at h
  | cons c t =>
    simp only [Re.run] at h
    split at h <;> simp at h
    subst h
    exact ⟨c, by assumption, rfl, rfl⟩

theorem star_groups {p : UInt8 → Bool} {prev : Option UInt8} {s : Bytes} {y : Found} (h : y ∈ (Re.star p).run prev s) :
    y.groups = [] := by
  simp only [Re.run, List.mem_map] at h
  obtain ⟨u, _, rfl⟩ := h
  rfl

theorem seq_mem {a b : Re} {prev : Option UInt8} {s : Bytes} {y : Found} (h : y ∈ (Re.seq a b).run prev s) :
    ∃ p1 s1 x p2 s2 z, x ∈ a.run p1 s1 ∧ z ∈ b.run p2 s2 ∧ y.groups = x.groups ++ z.groups := by
  simp only [Re.run, List.mem_flatMap, List.mem_map] at h
  obtain ⟨x, hx, z, hz, rfl⟩ := h
  exact ⟨_, _, x, _, _, z, hx, hz, rfl⟩

theorem cap_mem {a : Re} {prev : Option UInt8} {s : Bytes} {y : Found} (h : y ∈ (Re.cap a).run prev s) :
    ∃ x, x ∈ a.run prev s ∧ y.groups = x.text :: x.groups := by
  simp only [Re.run, List.mem_map] at h
  obtain ⟨x, hx, rfl⟩ := h
  exact ⟨x, hx, rfl⟩

/-- The matches of the expression have four groups, and the third is a letter or a digit. -/
theorem snake_groups {prev : Option UInt8} {s : Bytes} {y : Found} (h : y ∈ snakeRegex.run prev s) :
    ∃ a b c d, y.groups = [a, b, [c], d] ∧ alnum c = true := by
  obtain ⟨_, _, x1, _, _, z1, h1, k1, e1⟩ := seq_mem h
  obtain ⟨u1, hu1, f1⟩ := cap_mem h1
  rw [star_groups hu1] at f1
  obtain ⟨_, _, x2, _, _, z2, h2, k2, e2⟩ := seq_mem k1
  obtain ⟨u2, hu2, f2⟩ := cap_mem h2
  obtain ⟨_, _, x3, _, _, z3, h3, k3, e3⟩ := seq_mem hu2
  rw [plus_groups h3, star_groups k3] at e3
  rw [e3] at f2
  obtain ⟨_, _, x4, _, _, z4, h4, k4, e4⟩ := seq_mem k2
  obtain ⟨_, _, _, e5⟩ := cls_groups (p := fun d => d == 95) h4
  obtain ⟨_, _, x6, _, _, z6, h6, k6, e6⟩ := seq_mem k4
  obtain ⟨u6, hu6, f6⟩ := cap_mem h6
  obtain ⟨c, hc, t6, g6⟩ := cls_groups hu6
  obtain ⟨u7, hu7, f7⟩ := cap_mem k6
  rw [star_groups hu7] at f7
  refine ⟨u1.text, u2.text, c, u7.text, ?_, hc⟩
  rw [e1, f1, e2, f2, e4, e5, e6, f6, t6, g6, f7]
  rfl

/-- The function literal of snake2camel.go:43-45. -/
def literal : Stmts → Stmts
  | .cons (.assign _ (.cons (.call _ (.cons _ (.cons _ (.cons (.func _ b) .nil)))) .nil)) _ => b
  | _ => .nil
def scRepl : Stmts := tool_stmts% literal (loopBody scRounds)

theorem alnum_ascii {c : UInt8} (h : alnum c = true) : c < 128 := by
  simp only [alnum, lowerCase, digit, Bool.or_eq_true, Bool.and_eq_true, decide_eq_true_eq] at h
  rcases h with (⟨_, h⟩ | ⟨_, h⟩) | ⟨_, h⟩ <;> exact UInt8.lt_of_le_of_lt h (by decide)

theorem repl_run (P : Prog) (S : Sys) (n : Nat) {str : Bytes} {gs : List (Nat × Nat)} {y : Found} {env : Env} {w : List Event}
    {a b d : Bytes} {c : UInt8} (hy : y.groups = [a, b, [c], d]) (hc : alnum c = true)
    (hg : gs.map (cut str) = y.text :: y.groups) (he : GoLang.get "strings" env = none) :
    callN P S (n + 1) (("groups", .list (texts str gs)) :: env) scRepl w = .ok ([.str (repl y)], w) := by
  have ht : texts str gs = [.str y.text, .str a, .str b, .str [c], .str d] := by
    have : texts str gs = (gs.map (cut str)).map .str := by simp [texts, Function.comp]
    rw [this, hg, hy]; rfl
  have ha := alnum_ascii hc
  rw [ht]
  simp [callN, scRepl, execs, exec, evals, eval, lookup, GoLang.get, isExt, he, extCall, indexVal, one, binVal, ha, repl, group, hy]

theorem replace_run (S : Sys) (n : Nat) {str : Bytes} {env : Env} {w : List Event} (he : GoLang.get "strings" env = none)
    (hn : 6 ≤ n) :
    callN scProg S (n + 1) [("re", .regexp snakeRx), ("str", .str str), ("repl", .func ["groups"] scRepl env)] scReplace.body w =
      .ok ([.str (replaceAllStringSubmatchFunc snakeRegex str repl).1,
        .int ((replaceAllStringSubmatchFunc snakeRegex str repl).2 : Nat)], w) := by
  obtain ⟨n, rfl⟩ : ∃ m, n = m + 1 := ⟨n - 1, by omega⟩
  obtain ⟨o', h1, h2, h3, h4⟩ := loop_run scProg S (callN scProg S (n + 1)) (n + 1) 0 [] snakeRx str w snakeRegex (body := scRepl) (env := env)
    (m := 4) (by omega) (by
      intro prev s y hy
      obtain ⟨a, b, c, d, e, hc⟩ := snake_groups hy
      exact ⟨by rw [e]; rfl, fun gs hg => repl_run scProg S n e hc hg he⟩) (str.length + 1) none (s := str) rfl (by omega)
  have hl : str.length - ((snakeRegex.findAll (str.length + 1) none str).2).length = o' := by
    rw [← h2, List.length_drop]; omega
  have hs : sliceVal (.str str) (o' : Int) (str.length : Int) = .ok (.str (str.drop o')) := by
    rw [slice_cut h3 (Nat.le_refl _)]
    rw [cut, List.take_of_length_le (by simp)]
  have hev : eval scProg S (callN scProg S (n + 1))
      (.call (.sel (.id "re") "FindAllSubmatchIndex") (.cons (.bytes (.id "str")) (.cons (.neg (.num 1)) .nil)))
      ⟨loopEnv 0 [] snakeRx str (.func ["groups"] scRepl env), w⟩ =
      .ok ([.list ((snakeRegex.findAllI (str.length + 1) 0 none str).map fun x => .list (indices x))],
        ⟨loopEnv 0 [] snakeRx str (.func ["groups"] scRepl env), w⟩) := by
    simp [eval, evals, lookup, loopEnv, GoLang.get, isExt, method, snake_findAll]
  have hr : exec scProg S (callN scProg S (n + 1)) (n + 1) (.range "v"
      (.call (.sel (.id "re") "FindAllSubmatchIndex") (.cons (.bytes (.id "str")) (.cons (.neg (.num 1)) .nil))) scRange)
      ⟨loopEnv 0 [] snakeRx str (.func ["groups"] scRepl env), w⟩ = .ok (.next, ⟨loopEnv o'
        ([] ++ (snakeRegex.findAll (str.length + 1) none str).1.flatMap fun x => x.1 ++ repl x.2) snakeRx str
        (.func ["groups"] scRepl env), w⟩) := by
    rw [exec, hev]; exact h1
  have ha : exec scProg S (callN scProg S (n + 1)) (n + 1) (.define ["result"] (.cons (.str []) .nil))
      ⟨[("re", .regexp snakeRx), ("str", .str str), ("repl", .func ["groups"] scRepl env)], w⟩ =
      .ok (.next, ⟨[("result", .str []), ("re", .regexp snakeRx), ("str", .str str), ("repl", .func ["groups"] scRepl env)], w⟩) := by
    simp [exec, evals, eval, bytesOf]
  have hb : exec scProg S (callN scProg S (n + 1)) (n + 1) (.define ["lastIndex"] (.cons (.num 0) .nil))
      ⟨[("result", .str []), ("re", .regexp snakeRx), ("str", .str str), ("repl", .func ["groups"] scRepl env)], w⟩ =
      .ok (.next, ⟨loopEnv 0 [] snakeRx str (.func ["groups"] scRepl env), w⟩) := by
    simp [exec, evals, eval, loopEnv]
  rw [callN]
  rw [show execs scProg S (callN scProg S (n + 1)) (n + 1) scReplace.body
      ⟨[("re", .regexp snakeRx), ("str", .str str), ("repl", .func ["groups"] scRepl env)], w⟩ = _ from
    (execs_next _ _ _ _ ha).trans ((execs_next _ _ _ _ hb).trans (execs_next _ _ _ _ hr))]
  have hlast : o' = (replaceAllStringSubmatchFunc snakeRegex str repl).2 := by
    simp only [replaceAllStringSubmatchFunc]
    by_cases hz : (snakeRegex.findAll (str.length + 1) none str).1 = []
    · rw [if_pos hz, h4 hz]
    · rw [if_neg hz, hl]
  have hout : ([] ++ (snakeRegex.findAll (str.length + 1) none str).1.flatMap fun x => x.1 ++ repl x.2) ++ str.drop o' =
      (replaceAllStringSubmatchFunc snakeRegex str repl).1 := by
    simp only [replaceAllStringSubmatchFunc]
    rw [h2]; simp
  rw [← hout, ← hlast]
  simp [execs, exec, evals, eval, lookup, loopEnv, GoLang.get, lenVal, one, hs, binVal]

/-! ## The rounds -/

/-- The variables of `snake2camel`. -/
def roundEnv (last : Int) (res : Bytes) (content : Bytes) : Env :=
  [("last", .int last), ("res", .str res), ("re", .regexp snakeRx), ("content", .bytes content)]

def scTest : Expr := .bin .ne (.id "last") (.num 0)
def scRound : Stmts := tool_stmts% loopBody scRounds

theorem scRounds_eq : ∃ rest, scRounds = .cons (.for_ .nil scTest .nil scRound) rest := ⟨_, rfl⟩

theorem round_snake (S : Sys) (n fuel : Nat) (hn : 6 ≤ n) {last : Int} {res content : Bytes} {w : List Event} (hl : last ≠ 0) :
    forRound (eval scProg S (callN scProg S (n + 1)) scTest) (fun st => execs scProg S (callN scProg S (n + 1)) fuel scRound st)
      (fun st => execs scProg S (callN scProg S (n + 1)) fuel .nil st) ⟨roundEnv last res content, w⟩ =
    .ok (some .next, ⟨roundEnv ((replaceAllStringSubmatchFunc snakeRegex res repl).2 : Nat)
      (replaceAllStringSubmatchFunc snakeRegex res repl).1 content, w⟩) := by
  have hf : findFn scProg "replaceAllStringSubmatchFunc" = some scReplace := rfl
  have hp : scReplace.params = ["re", "str", "repl"] := rfl
  have hr := replace_run S n (str := res) (env := roundEnv last res content) (w := w) (by simp [roundEnv, GoLang.get]) hn
  generalize replaceAllStringSubmatchFunc snakeRegex res repl = z at *
  simp only [roundEnv, scRepl] at hr
  simp [forRound, scTest, scRound, execs, exec, evals, eval, lookup, roundEnv, GoLang.get, one, binVal, hl, callName, builtin, hf, hp,
    bindParams, hr, assigns, GoLang.set, inScope]

theorem rounds_snake (S : Sys) (n fuel : Nat) (hn : 6 ≤ n) (k m : Nat) (hk : k ≤ m) {last : Int} {res content out : Bytes} {w : List Event}
    (h : snakeLoop k res last = .ok out) :
    forLoop (forRound (eval scProg S (callN scProg S (n + 1)) scTest)
      (fun st => execs scProg S (callN scProg S (n + 1)) fuel scRound st)
      (fun st => execs scProg S (callN scProg S (n + 1)) fuel .nil st)) m ⟨roundEnv last res content, w⟩ =
    .ok (.next, ⟨roundEnv 0 out content, w⟩) := by
  induction k generalizing m last res with
  | zero => simp [snakeLoop] at h
  | succ k ih =>
    obtain ⟨m, rfl⟩ : ∃ j, m = j + 1 := ⟨m - 1, by omega⟩
    rw [snakeLoop] at h
    by_cases hl : last = 0
    · rw [if_neg (by simpa using hl)] at h
      cases h
      subst hl
      simp [forLoop, forRound, scTest, eval, lookup, roundEnv, GoLang.get, one, binVal]
    · rw [if_pos hl] at h
      rw [forLoop, round_snake S n fuel hn hl]
      exact ih m (by omega) h

theorem snake_text : bytesOf [40, 46, 42, 41, 40, 91, 97, 45, 122, 93, 43, 91, 48, 45, 57, 93, 42, 41, 95, 40, 91, 97, 45, 122, 65,
    45, 90, 48, 45, 57, 93, 41, 40, 46, 42, 41] = lit "(.*)([a-z]+[0-9]*)_([a-zA-Z0-9])(.*)" := rfl

theorem snake_run (S : Sys) (n k : Nat) (hn : 6 ≤ n) (hk : k ≤ n + 1) {content out : Bytes} {w : List Event}
    (h : snake2camel k content = .ok out) :
    callN scProg S (n + 2) [("content", .bytes content)] scSnake.body w = .ok ([.bytes out], w) := by
  have hr := rounds_snake S n (n + 1) hn k (n + 1) hk (content := content) (w := w) h
  have he : exec scProg S (callN scProg S (n + 1)) (n + 1) (.for_ .nil scTest .nil scRound) ⟨roundEnv (-1) content content, w⟩ =
      .ok (.next, ⟨roundEnv 0 out content, w⟩) := by
    rw [exec, execs]
    simp only [Res.ok_bind]
    rw [hr]
    simp [inScope, roundEnv]
  have h1 : exec scProg S (callN scProg S (n + 1)) (n + 1) (.define ["re"] (.cons (.call (.sel (.id "regexp") "MustCompile")
      (.cons (.str [40, 46, 42, 41, 40, 91, 97, 45, 122, 93, 43, 91, 48, 45, 57, 93, 42, 41, 95, 40, 91, 97, 45, 122, 65,
    45, 90, 48, 45, 57, 93, 41, 40, 46, 42, 41]) .nil)) .nil)) ⟨[("content", .bytes content)], w⟩ =
      .ok (.next, ⟨[("re", .regexp snakeRx), ("content", .bytes content)], w⟩) := by
    simp [exec, evals, eval, GoLang.get, isExt, extCall, snake_text, read_snake]
  have h2 : exec scProg S (callN scProg S (n + 1)) (n + 1) (.define ["res"] (.cons (.call (.id "string") (.cons (.id "content") .nil)) .nil))
      ⟨[("re", .regexp snakeRx), ("content", .bytes content)], w⟩ =
      .ok (.next, ⟨[("res", .str content), ("re", .regexp snakeRx), ("content", .bytes content)], w⟩) := by
    simp [exec, evals, eval, lookup, GoLang.get, callName, builtin, string]
  have h3 : exec scProg S (callN scProg S (n + 1)) (n + 1) (.define ["last"] (.cons (.neg (.num 1)) .nil))
      ⟨[("res", .str content), ("re", .regexp snakeRx), ("content", .bytes content)], w⟩ =
      .ok (.next, ⟨roundEnv (-1) content content, w⟩) := by
    simp [exec, evals, eval, roundEnv]
  rw [callN]
  rw [show execs scProg S (callN scProg S (n + 1)) (n + 1) scSnake.body ⟨[("content", .bytes content)], w⟩ = _ from
    (execs_next _ _ _ _ h1).trans ((execs_next _ _ _ _ h2).trans ((execs_next _ _ _ _ h3).trans (execs_next _ _ _ _ he)))]
  simp [execs, exec, evals, eval, lookup, roundEnv, GoLang.get]

/-! ## The program -/

theorem scFile_run (S : Sys) (n : Nat) (hn : 6 ≤ n) (p : Bytes) (w : List Event) (out : Bytes → Bytes)
    (h : ∀ c, S.read p = .ok c → ∃ k, k ≤ n + 1 ∧ snake2camel k c = .ok (out c)) :
    callN scProg S (n + 3) [("path", .str p)] scFile.body w = .ok ([errVal (fileRun S p out).1], w ++ (fileRun S p out).2) := by
  cases hc : S.read p with
  | error e =>
    rw [callN]
    simp [scFile, execs, exec, evals, eval, lookup, GoLang.get, isExt, extCall, hc, binVal, one, inScope, fileRun, errVal,
      show GoLang.get "nil" scProg.vars = none from rfl]
  | ok c =>
    obtain ⟨k, hk, ho⟩ := h c hc
    have hf : findFn scProg "snake2camel" = some scSnake := rfl
    have hr := fun w => snake_run S n k hn hk (w := w) ho
    have hp : scSnake.params = ["content"] := rfl
    cases hw : S.write p (out c) <;>
    · rw [callN]
      simp [scFile, execs, exec, evals, eval, lookup, GoLang.get, isExt, extCall, hc, binVal, one, inScope, fileRun, errVal, callName,
        builtin, hf, hp, bindParams, hr, hw, show GoLang.get "nil" scProg.vars = none from rfl]

theorem scMain_run (S : Sys) (n : Nat) (hn : 6 ≤ n) (out : Bytes → Bytes)
    (h : ∀ p c, S.read p = .ok c → p ∈ S.args → ∃ k, k ≤ n + 1 ∧ snake2camel k c = .ok (out c)) :
    exitOf (callN scProg S (n + 4) [] scMain.body []) = .ok (mainRun S out) := by
  have hx : findFn scProg "exitWithError" = some scExit := rfl
  have hxp : scExit.params = ["msg"] := rfl
  have hxb := scExit_body
  have hf : findFn scProg "snake2camelFile" = some scFile := rfl
  have hfp : scFile.params = ["path"] := rfl
  have hn : GoLang.get "nil" scProg.vars = none := rfl
  have main (l : Nat) (h : S.args.length = l) (hl : l ≠ 2) : exitOf (callN scProg S (n + 4) [] scMain.body []) =
      .ok (1, [.stderr (errorText (lit "must be called with the file path as the only argument"))]) := by
    rw [callN]
    have hl' : ¬ (l : Int) = 2 := by omega
    simp [scMain, execs, exec, evals, eval, lookup, GoLang.get, isExt, extVar, extCall, binVal, one, inScope, callName, builtin,
      len, append, string, lenVal, h, hl', hx, hxp, hxb, bindParams, exit_run, must_text, exitOf]
  match ha : S.args with
  | [] => rw [main 0 (by rw [ha]; rfl) (by omega)]; simp [mainRun, ha]
  | [a] => rw [main 1 (by rw [ha]; rfl) (by omega)]; simp [mainRun, ha]
  | a :: b :: c :: d => rw [main (d.length + 3) (by rw [ha]; rfl) (by omega)]; simp [mainRun, ha]
  | [a, p] =>
    have hr := scFile_run S n (by assumption) p [] out (fun c hc => h p c hc (by rw [ha]; simp))
    rw [callN]
    cases hr' : (fileRun S p out).1 <;>
    simp [scMain, execs, exec, evals, eval, lookup, GoLang.get, isExt, extVar, extCall, binVal, one, inScope, callName, builtin,
      len, append, string, lenVal, ha, hx, hxp, hxb, bindParams, exit_run, must_text, exitOf, indexVal, hf, hfp, hr, hr', errVal, hn,
      method, mainRun]
    all_goals (revert hr'; generalize fileRun S p out = x; intro hr'; obtain ⟨y, z⟩ := x; simp only at hr'; subst hr'; rfl)

end Urn.ToolLang
