import Verif.ToolRun
import Verif.ToolsAux
/-!
# What the text of the tools does: snake2camel
-/
set_option autoImplicit false
set_option linter.unusedSimpArgs false
namespace Urn.ToolLang
open GoLang (bytesOf)
open Regex Tools

theorem indices_length (gs : List (Nat × Nat)) : (indices gs).length = 2 * gs.length := by
  induction gs with
  | nil => rfl
  | cons g gs ih => obtain ⟨a, b⟩ := g; simp [indices, ih]; omega

theorem indices_get {gs : List (Nat × Nat)} {k : Nat} {g : Nat × Nat} (h : gs[k]? = some g) :
    (indices gs)[2 * k]? = some (.int g.1) ∧ (indices gs)[2 * k + 1]? = some (.int g.2) := by
  induction gs generalizing k with
  | nil => simp at h
  | cons g' gs ih =>
    obtain ⟨a, b⟩ := g'
    cases k with
    | zero => simp at h; subst h; simp [indices]
    | succ k =>
      simp at h
      have := ih h
      rw [show 2 * (k + 1) = 2 * k + 1 + 1 by omega]
      simpa [indices] using this

/-- The variables of the loop of `replaceAllStringSubmatchFunc`. -/
def loopEnv (o : Nat) (res : Bytes) (r : Rx) (str : Bytes) (f : Val) : Env :=
  [("lastIndex", .int o), ("result", .str res), ("re", .regexp r), ("str", .str str), ("repl", f)]

/-- The text between two places, as the loop takes it. -/
theorem slice_cut {str : Bytes} {a b : Nat} (h : a ≤ b) (h' : b ≤ str.length) :
    sliceVal (.str str) (a : Int) (b : Int) = .ok (.str (cut str (a, b))) := by
  simp [sliceVal, cut]; omega

section
variable (P : Prog) (S : Sys) (call : Call) (fuel : Nat)
variable (o : Nat) (res : Bytes) (r : Rx) (str : Bytes) (f : Val) (w : List Event)

/-- The statements of the inner loop, snake2camel.go:23-29. -/
def scCond : Expr := .bin .lt (.id "i") (.call (.id "len") (.cons (.id "v") .nil))
def scPost : Stmts := .cons (.add "i" (.num 2)) .nil
def scInner : Stmts := tool_stmts% loopBody scFor

theorem scFor_eq : ∃ rest, scFor =
    .cons (.for_ (.cons (.define ["i"] (.cons (.num 0) .nil)) .nil) scCond scPost scInner) rest := ⟨_, rfl⟩

theorem round_step {V acc : List Val} {K : Int} {g : Nat × Nat} (hlt : K < V.length)
    (hx : indexVal (.list V) K = .ok (.int g.1)) (hy : indexVal (.list V) (K + 1) = .ok (.int g.2))
    (hs : sliceVal (.str str) g.1 g.2 = .ok (.str (cut str g))) :
    forRound (eval P S call scCond) (fun st => execs P S call fuel scInner st) (fun st => execs P S call fuel scPost st)
      ⟨("i", .int K) :: ("groups", .list acc) :: ("v", .list V) :: loopEnv o res r str f, w⟩ =
    .ok (some .next,
      ⟨("i", .int (K + 2)) :: ("groups", .list (acc ++ [.str (cut str g)])) :: ("v", .list V) :: loopEnv o res r str f, w⟩) := by
  have ha : ¬ ((g.1 : Int) = -1) := by omega
  have hb : ¬ ((g.2 : Int) = -1) := by omega
  simp [forRound, scCond, scInner, scPost, execs, exec, eval, evals, lookup, GoLang.get, callName, builtin, len, append, lenVal,
    loopEnv, binVal, one, hlt, hx, hy, hs, ha, hb, inScope, assigns, GoLang.set]

theorem round_run {gs : List (Nat × Nat)} {k : Nat} {g : Nat × Nat} (hk : gs[k]? = some g) (h1 : g.1 ≤ g.2)
    (h2 : g.2 ≤ str.length) (acc : List Val) :
    forRound (eval P S call scCond) (fun st => execs P S call fuel scInner st) (fun st => execs P S call fuel scPost st)
      ⟨("i", .int (2 * k : Nat)) :: ("groups", .list acc) :: ("v", .list (indices gs)) :: loopEnv o res r str f, w⟩ =
    .ok (some .next,
      ⟨("i", .int (2 * (k + 1) : Nat)) :: ("groups", .list (acc ++ [.str (cut str g)])) :: ("v", .list (indices gs)) ::
        loopEnv o res r str f, w⟩) := by
  obtain ⟨hi, hj⟩ := indices_get hk
  have hlt : k < gs.length := by
    rcases Nat.lt_or_ge k gs.length with h | h
    · exact h
    · rw [List.getElem?_eq_none h] at hk; cases hk
  have ht : (((2 * k : Nat) : Int) + 1).toNat = 2 * k + 1 := by omega
  have hp : 0 ≤ ((2 * k : Nat) : Int) + 1 := by omega
  have hp' : 0 ≤ ((2 * k : Nat) : Int) := by omega
  have hn : ((2 * k : Nat) : Int) + 2 = (2 * (k + 1) : Nat) := by omega
  rw [← hn]
  refine round_step P S call fuel o res r str f w ?_ ?_ ?_ (slice_cut h1 h2)
  · rw [indices_length]; omega
  · simp only [indexVal, Int.toNat_natCast, hi, if_pos hp']
  · simp only [indexVal, ht, hj, if_pos hp]

theorem round_end {gs : List (Nat × Nat)} (acc : List Val) :
    forRound (eval P S call scCond) (fun st => execs P S call fuel scInner st) (fun st => execs P S call fuel scPost st)
      ⟨("i", .int (2 * gs.length : Nat)) :: ("groups", .list acc) :: ("v", .list (indices gs)) :: loopEnv o res r str f, w⟩ =
    .ok (none,
      ⟨("i", .int (2 * gs.length : Nat)) :: ("groups", .list acc) :: ("v", .list (indices gs)) :: loopEnv o res r str f, w⟩) := by
  simp [forRound, scCond, eval, evals, lookup, GoLang.get, callName, builtin, len, lenVal, loopEnv, binVal, one, indices_length]

/-- The texts of the match and its groups. -/
def texts (str : Bytes) (gs : List (Nat × Nat)) : List Val := gs.map fun g => .str (cut str g)

theorem rounds_run {gs : List (Nat × Nat)} (hg : ∀ g ∈ gs, g.1 ≤ g.2 ∧ g.2 ≤ str.length) (j k n : Nat) (hj : k + j = gs.length)
    (hn : j + 1 ≤ n) :
    forLoop (forRound (eval P S call scCond) (fun st => execs P S call fuel scInner st) (fun st => execs P S call fuel scPost st)) n
      ⟨("i", .int (2 * k : Nat)) :: ("groups", .list (texts str (gs.take k))) :: ("v", .list (indices gs)) ::
        loopEnv o res r str f, w⟩ =
    .ok (.next, ⟨("i", .int (2 * gs.length : Nat)) :: ("groups", .list (texts str gs)) :: ("v", .list (indices gs)) ::
        loopEnv o res r str f, w⟩) := by
  induction j generalizing k n with
  | zero =>
    obtain ⟨n, rfl⟩ : ∃ m, n = m + 1 := ⟨n - 1, by omega⟩
    have : k = gs.length := by omega
    subst this
    rw [forLoop, round_end, List.take_length]; rfl
  | succ j ih =>
    obtain ⟨n, rfl⟩ : ∃ m, n = m + 1 := ⟨n - 1, by omega⟩
    have hk : gs[k]? = some gs[k] := List.getElem?_eq_getElem (by omega)
    obtain ⟨h1, h2⟩ := hg _ (List.getElem_mem (l := gs) (n := k) (by omega))
    rw [forLoop, round_run P S call fuel o res r str f w hk h1 h2]
    simp only [Res.ok_bind]
    rw [show texts str (gs.take k) ++ [Val.str (cut str gs[k])] = texts str (gs.take (k + 1)) by
      rw [List.take_add_one, hk]; simp only [texts, Option.toList_some, List.map_append, List.map_cons, List.map_nil]]
    exact ih (k + 1) n (by omega) (by omega)

theorem execs_next {s : Stmt} {ss : Stmts} {st st' : State} (h : exec P S call fuel s st = .ok (.next, st')) :
    execs P S call fuel (.cons s ss) st = execs P S call fuel ss st' := by
  rw [execs, h]; rfl

/-- One round of the loop over the matches, snake2camel.go:21-31. -/
theorem range_run {gs : List (Nat × Nat)} {a b : Nat} {body : Stmts} {env : Env} {t : Bytes}
    (hg : ∀ g ∈ (a, b) :: gs, g.1 ≤ g.2 ∧ g.2 ≤ str.length) (hn : gs.length + 2 ≤ fuel) (ho : o ≤ a)
    (hf : call (("groups", .list (texts str ((a, b) :: gs))) :: env) body w = .ok ([.str t], w)) :
    inScope (loopEnv o res r str (.func ["groups"] body env)).length
      (execs P S call fuel scRange ⟨("v", .list (indices ((a, b) :: gs))) :: loopEnv o res r str (.func ["groups"] body env), w⟩) =
    .ok (.next, ⟨loopEnv b (res ++ (cut str (o, a) ++ t)) r str (.func ["groups"] body env), w⟩) := by
  have hs := slice_cut (str := str) ho (by have := hg (a, b) (by simp); omega)
  have hr := rounds_run P S call fuel o res r str (.func ["groups"] body env) w hg (gs.length + 1) 0 fuel (by simp) (by omega)
  have he : exec P S call fuel (.for_ (.cons (.define ["i"] (.cons (.num 0) .nil)) .nil) scCond scPost scInner)
      ⟨("groups", .list []) :: ("v", .list (indices ((a, b) :: gs))) :: loopEnv o res r str (.func ["groups"] body env), w⟩ =
      .ok (.next, ⟨("groups", .list (texts str ((a, b) :: gs))) :: ("v", .list (indices ((a, b) :: gs))) ::
        loopEnv o res r str (.func ["groups"] body env), w⟩) := by
    rw [exec]
    simp only [execs, exec, evals, eval, Res.ok_bind, Res.pure_eq, List.append_nil, List.length_cons, List.length_nil, if_true,
      List.zip_cons_cons, List.zip_nil_left, List.cons_append, List.nil_append]
    simp only [Nat.mul_zero, List.take_zero, texts, List.map_nil] at hr
    rw [show ((0 : Nat) : Int) = ((0 : Nat) : Int) from rfl, hr]
    simp [inScope, loopEnv, texts]
  have h1 : exec P S call fuel (.define ["groups"] (.cons .empty .nil))
      ⟨("v", .list (indices ((a, b) :: gs))) :: loopEnv o res r str (.func ["groups"] body env), w⟩ =
      .ok (.next, ⟨("groups", .list []) :: ("v", .list (indices ((a, b) :: gs))) ::
        loopEnv o res r str (.func ["groups"] body env), w⟩) := by
    simp [exec, evals, eval]
  rw [show execs P S call fuel scRange ⟨("v", .list (indices ((a, b) :: gs))) :: loopEnv o res r str (.func ["groups"] body env), w⟩ =
    _ from (execs_next P S call fuel h1).trans (execs_next P S call fuel he)]
  simp [execs, exec, evals, eval, lookup, loopEnv, GoLang.get, one, indices, indexVal, hs, callName, bindParams, hf, binVal, assigns,
    GoLang.set, inScope]

theorem find_mem (r : Re) {prev : Option UInt8} {s k : Bytes} {y : Found} (h : r.find prev s = some (k, y)) :
    ∃ prev' s', y ∈ r.run prev' s' := by
  induction s generalizing prev k with
  | nil =>
    rw [Re.find] at h
    cases hr : (r.run prev []).head? with
    | none => rw [hr] at h; cases h
    | some x => rw [hr] at h; cases h; exact ⟨_, _, List.mem_of_head? hr⟩
  | cons c t ih =>
    rw [Re.find] at h
    cases hr : (r.run prev (c :: t)).head? with
    | none =>
      rw [hr] at h
      simp only [Option.map_eq_some_iff] at h
      obtain ⟨⟨k', y'⟩, h1, h2⟩ := h
      cases h2
      exact ih h1
    | some x => rw [hr] at h; cases h; exact ⟨_, _, List.mem_of_head? hr⟩

/-- The loop over the matches. -/
theorem loop_run (e : Re) {body : Stmts} {env : Env} {m : Nat} (hn : m + 2 ≤ fuel)
    (hf : ∀ prev s, ∀ y ∈ e.run prev s, y.groups.length = m ∧ ∀ gs : List (Nat × Nat), gs.map (cut str) = y.text :: y.groups →
      call (("groups", .list (texts str gs)) :: env) body w = .ok ([.str (repl y)], w))
    (n : Nat) (prev : Option UInt8) {s : Bytes} (hs : str.drop o = s) (ho : o ≤ str.length) :
    ∃ o', rangeLoop (fun v st => inScope st.env.length (execs P S call fuel scRange { st with env := ("v", v) :: st.env }))
        ((e.findAllI n o prev s).map fun x => .list (indices x)) ⟨loopEnv o res r str (.func ["groups"] body env), w⟩ =
      .ok (.next, ⟨loopEnv o' (res ++ (e.findAll n prev s).1.flatMap fun x => x.1 ++ repl x.2) r str (.func ["groups"] body env), w⟩) ∧
      str.drop o' = (e.findAll n prev s).2 ∧ o' ≤ str.length ∧ ((e.findAll n prev s).1 = [] → o' = o) := by
  induction n generalizing o prev s res with
  | zero => exact ⟨o, by simp [Re.findAllI, Re.findAll, rangeLoop], by simp [Re.findAll, hs], ho, fun _ => rfl⟩
  | succ n ih =>
    have h := findI_eq (r := e) (prev := prev) hs
    cases hi : e.findI o prev s with
    | none =>
      rw [hi] at h
      simp only at h
      exact ⟨o, by simp [Re.findAllI, Re.findAll, rangeLoop, hi, h], by simp [Re.findAll, hs, h], ho, fun _ => rfl⟩
    | some z =>
      obtain ⟨i, x⟩ := z
      rw [hi] at h
      obtain ⟨skip, h1, rfl, h3, h4⟩ := h
      by_cases hx : x.text = []
      · exact ⟨o, by simp [Re.findAllI, Re.findAll, rangeLoop, hi, h1, hx, Place.found],
          by simp [Re.findAll, hs, h1, hx, Place.found], ho, fun _ => rfl⟩
      · have hl : str.length = o + (skip.length + x.text.length + x.rest.length) := by
          have e' := congrArg List.length hs
          rw [← h3] at e'
          simp only [List.length_drop, List.length_append] at e'
          omega
        have hd : str.drop (o + skip.length) = x.text ++ x.rest := by
          rw [← List.drop_drop, hs, ← h3, List.append_assoc]; simp
        have hd' : str.drop (o + skip.length + x.text.length) = x.rest := by
          rw [← List.drop_drop, hd]; simp
        have hk : cut str (o, o + skip.length) = skip := by
          simp only [cut]; rw [hs, ← h3, List.append_assoc]; simp
        obtain ⟨p', s', hmem⟩ := find_mem e h1
        obtain ⟨hlen, hcall⟩ := hf p' s' _ hmem
        have hc := hcall ((o + skip.length, o + skip.length + x.text.length) :: x.groups) (by
          simp only [List.map_cons, Place.found, cut, hd]; simp)
        have hg : ∀ g ∈ (o + skip.length, o + skip.length + x.text.length) :: x.groups, g.1 ≤ g.2 ∧ g.2 ≤ str.length := by
          intro g hg
          simp only [List.mem_cons] at hg
          rcases hg with rfl | hg
          · simp only; omega
          · have := h4 g hg; omega
        have hlen' : x.groups.length = m := by simpa [Place.found] using hlen
        have hstep := range_run P S call fuel o res r str w (body := body) (env := env) hg (by omega) (by omega) hc
        obtain ⟨o', e1, e2, e3, e4⟩ := ih (o + skip.length + x.text.length) (res ++ (cut str (o, o + skip.length) ++ repl (x.found str)))
          x.text.getLast? hd' (by omega)
        have hfa : e.findAll (n + 1) prev s =
            ((skip, x.found str) :: (e.findAll n x.text.getLast? x.rest).1, (e.findAll n x.text.getLast? x.rest).2) := by
          rw [Re.findAll, h1]
          simp [Place.found, hx]
        refine ⟨o', ?_, by rw [hfa]; exact e2, e3, by rw [hfa]; simp⟩
        rw [Re.findAllI, hi]
        simp only
        rw [if_neg hx, List.map_cons, rangeLoop]
        simp only
        rw [hstep]
        simp only [Res.ok_bind]
        rw [e1, hfa, hk]
        simp

end

end Urn.ToolLang
