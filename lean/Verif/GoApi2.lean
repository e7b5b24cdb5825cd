import Verif.GoApi
import Verif.WordAux
/-!
# The methods of machines and the options in the text and in the model
-/
set_option autoImplicit false
set_option linter.unusedSimpArgs false
set_option maxRecDepth 10000000
namespace Urn.GoLang

def newMachineFn : Fn := fn% fnOf none "NewMachine"
theorem find_newMachine : findFn prog none "NewMachine" = some newMachineFn := by kernel_rfl
def optionFn : Fn := fn% fnOf none "WithParsingMode"
theorem find_option : findFn prog none "WithParsingMode" = some optionFn := by kernel_rfl
def setModeFn : Fn := fn% fnOf (some (.ptr (.name "machine"))) "WithParsingMode"
theorem find_setMode : findFn prog (some (.ptr (.name "machine"))) "WithParsingMode" = some setModeFn := by kernel_rfl
def errorFn : Fn := fn% fnOf (some (.ptr (.name "machine"))) "Error"
theorem find_error : findFn prog (some (.ptr (.name "machine"))) "Error" = some errorFn := by kernel_rfl

theorem zero_mode : zero prog 3 (.name "ParsingMode") = .int "ParsingMode" 0 := by kernel_rfl
theorem zero_machine : zero prog 3 (.name "Machine") = .nil := by kernel_rfl
theorem zero_option : zero prog 3 (.name "Option") = .nil := by kernel_rfl
theorem c_enMain : get "enMain" prog.consts = some (.int "int" 1) := by kernel_rfl
theorem c_enRfc8141Only : get "enRfc8141Only" prog.consts = some (.int "int" 83) := by kernel_rfl
theorem c_enScimOnly : get "enScimOnly" prog.consts = some (.int "int" 44) := by kernel_rfl
theorem c_Default : get "DefaultParsingMode" prog.consts = some (.int "ParsingMode" 1) := by kernel_rfl
theorem fill_machine : fill prog "machine" [("parsingModeSet", .bool false)] = .ok (machVal (Buf.nil.val 0) { parsingModeSet := false }) := by kernel_rfl

section
variable {X : Ext} {n : Nat} {h : Heap} {am : Nat} {m : Machine} {b0 : Buf} {n0 : Nat}

theorem error_call (hm : h[am]? = some (.obj (machVal (b0.val n0) m))) :
    callFn prog (callN prog X (n + 1)) errorFn (some (.ptr "machine" (some am))) [] false h = .ok ([errVal m.error], h) := by
  have e1 : execs prog X (callN prog X n) n errorFn.body ⟨[("m", .ptr "machine" (some am))], h⟩ =
      .ok (.ret [errVal m.error], ⟨[("m", .ptr "machine" (some am))], h⟩) := by
    simp [errorFn, execs, exec, evals, eval, one, lookup, get, field, loadObj, hm, machVal, Machine.error]
  have hf : callFn prog (callN prog X (n + 1)) errorFn (some (.ptr "machine" (some am))) [] false h =
      callN prog X (n + 1) [.name "error"] [("m", .ptr "machine" (some am))] errorFn.body h := by
    simp [errorFn, callFn, bindParams]
  rw [hf, callN_ret e1 rfl]
  simp [zero_error, coerce]

theorem callN_next {P : Prog} {env : Env} {body : Stmts} {st : State}
    (he : execs P X (callN P X n) n body ⟨env, h⟩ = .ok (.next, st)) :
    callN P X (n + 1) [] env body h = .ok ([], st.heap) := by
  rw [callN, he]
  have : ∀ (e : String → State → Option (Res (Sig × State))) k, jumps e k (.ok (.next, st)) = .ok (.next, st) := by
    intro e k; cases k <;> rfl
  rw [this]
  rfl

theorem setMode_call {x : Int} (hm : h[am]? = some (.obj (machVal (b0.val n0) m))) :
    callFn prog (callN prog X (n + 1)) setModeFn (some (.ptr "machine" (some am))) [.int "ParsingMode" x] false h =
      .ok ([], h.set am (.obj (machVal (b0.val n0) (m.withParsingMode x)))) := by
  have hl := (List.getElem?_eq_some_iff.1 hm).1
  have hset : ∀ x, (h.set am x)[am]? = some x := fun x => List.getElem?_set_self hl
  have e1 : execs prog X (callN prog X n) n setModeFn.body ⟨[("m", .ptr "machine" (some am)), ("x", .int "ParsingMode" x)], h⟩ =
      .ok (.next, ⟨[("m", .ptr "machine" (some am)), ("x", .int "ParsingMode" x)], h.set am (.obj (machVal (b0.val n0) (m.withParsingMode x)))⟩) := by
    by_cases h1 : x = 1
    · simp [setModeFn, execs, exec, execCases, execDefault, evals, eval, store, one, lookup, get, field, setField, loadObj, hm, hset, machVal, set, coerce,
        Machine.withParsingMode, RFC2141Only, c_RFC2141Only, h1, eqVal, common, inScope, jumps, entry, c_enMain, c_true, Tables.enMain]
    · by_cases h3 : x = 3
      · simp [setModeFn, execs, exec, execCases, execDefault, evals, eval, store, one, lookup, get, field, setField, loadObj, hm, hset, machVal, set, coerce,
          Machine.withParsingMode, RFC2141Only, RFC8141Only, c_RFC2141Only, c_RFC8141Only, h3, eqVal, common, inScope, jumps, entry, c_enRfc8141Only, c_true, Tables.enRfc8141Only]
      · by_cases h2 : x = 2
        · simp [setModeFn, execs, exec, execCases, execDefault, evals, eval, store, one, lookup, get, field, setField, loadObj, hm, hset, machVal, set, coerce,
            Machine.withParsingMode, RFC2141Only, RFC8141Only, RFC7643Only, c_RFC2141Only, c_RFC8141Only, c_RFC7643Only, h2, eqVal, common, inScope, jumps, entry, c_enScimOnly, c_true, Tables.enScimOnly]
        · have h1' : (x == 1) = false := by simpa using h1
          have h2' : (x == 2) = false := by simpa using h2
          have h3' : (x == 3) = false := by simpa using h3
          simp [setModeFn, execs, exec, execCases, execDefault, evals, eval, store, one, lookup, get, field, setField, loadObj, hm, hset, machVal, set, coerce,
            Machine.withParsingMode, RFC2141Only, RFC8141Only, RFC7643Only, c_RFC2141Only, c_RFC8141Only, c_RFC7643Only, h1, h2, h3, h1', h2', h3', eqVal, common, inScope, jumps, entry, c_enScimOnly, c_true]
  have hf : callFn prog (callN prog X (n + 1)) setModeFn (some (.ptr "machine" (some am))) [.int "ParsingMode" x] false h =
      callN prog X (n + 1) [] [("m", .ptr "machine" (some am)), ("x", .int "ParsingMode" x)] setModeFn.body h := by
    by_cases hx : ("ParsingMode" : String) = "" <;> simp [setModeFn, callFn, bindParams, zero_mode, coerce]
  rw [hf, callN_next e1]

/-- What `WithParsingMode(x)` returns: a function that has a copy of `mode`. -/
def optVal (x : Int) : Val :=
  .func [{ name := "m", ty := .name "Machine", variadic := false }] []
    (.cons (.expr (.call (.sel (.id "m") "WithParsingMode") (.cons (.id "mode") .nil) false)) .nil) [("mode", .int "ParsingMode" x)]

theorem option_call {x : Int} :
    callFn prog (callN prog X (n + 1)) optionFn none [.int "ParsingMode" x] false h = .ok ([optVal x], h) := by
  have e1 : execs prog X (callN prog X n) n optionFn.body ⟨[("mode", .int "ParsingMode" x)], h⟩ =
      .ok (.ret [optVal x], ⟨[("mode", .int "ParsingMode" x)], h⟩) := by
    simp [optionFn, execs, exec, evals, eval, optVal]
  have hf : callFn prog (callN prog X (n + 1)) optionFn none [.int "ParsingMode" x] false h =
      callN prog X (n + 1) [.name "Option"] [("mode", .int "ParsingMode" x)] optionFn.body h := by
    simp [optionFn, callFn, bindParams, zero_mode, coerce]
  rw [hf, callN_ret e1 rfl]
  simp [zero_option, coerce]

/-- A call of an option. -/
theorem opt_call {x : Int} (hm : h[am]? = some (.obj (machVal (b0.val n0) m))) :
    callN prog X (n + 2) [] [("m", .ptr "machine" (some am)), ("mode", .int "ParsingMode" x)]
      (.cons (.expr (.call (.sel (.id "m") "WithParsingMode") (.cons (.id "mode") .nil) false)) .nil) h =
      .ok ([], h.set am (.obj (machVal (b0.val n0) (m.withParsingMode x)))) := by
  have e1 : execs prog X (callN prog X (n + 1)) (n + 1)
      (.cons (.expr (.call (.sel (.id "m") "WithParsingMode") (.cons (.id "mode") .nil) false)) .nil)
      ⟨[("m", .ptr "machine" (some am)), ("mode", .int "ParsingMode" x)], h⟩ =
      .ok (.next, ⟨[("m", .ptr "machine" (some am)), ("mode", .int "ParsingMode" x)], h.set am (.obj (machVal (b0.val n0) (m.withParsingMode x)))⟩) := by
    simp [execs, exec, eval_method, get, method, find_setMode, evals, eval, lookup, setMode_call hm]
  rw [callN_next e1]

/-- The loop of `NewMachine`. -/
theorem options_loop {vs : Val} : ∀ (xs : List Int) (h : Heap) (m : Machine), h[am]? = some (.obj (machVal (b0.val n0) m)) →
    rangeLoop (fun v st => inScope st.env.length
      (jumps (entry prog X (callN prog X (n + 2)) (n + 2) (.cons (.expr (.call (.id "o") (.cons (.id "m") .nil) false)) .nil)) (n + 2)
        (execs prog X (callN prog X (n + 2)) (n + 2) (.cons (.expr (.call (.id "o") (.cons (.id "m") .nil) false)) .nil)
          { st with env := ("o", v) :: st.env }))) (xs.map optVal) ⟨[("m", .ptr "machine" (some am)), ("options", vs)], h⟩ =
      .ok (.next, ⟨[("m", .ptr "machine" (some am)), ("options", vs)],
        h.set am (.obj (machVal (b0.val n0) (xs.foldl Machine.withParsingMode m)))⟩) := by
  intro xs
  induction xs with
  | nil =>
      intro h m hm
      simp only [List.map_nil, rangeLoop, List.foldl_nil]
      obtain ⟨hl, he⟩ := List.getElem?_eq_some_iff.1 hm
      rw [← he, List.set_getElem_self]
  | cons x xs ih =>
      intro h m hm
      have hl := (List.getElem?_eq_some_iff.1 hm).1
      have e := opt_call (X := X) (n := n) (x := x) hm
      have e1 : execs prog X (callN prog X (n + 2)) (n + 2) (.cons (.expr (.call (.id "o") (.cons (.id "m") .nil) false)) .nil)
          ⟨[("o", optVal x), ("m", .ptr "machine" (some am)), ("options", vs)], h⟩ =
          .ok (.next, ⟨[("o", optVal x), ("m", .ptr "machine" (some am)), ("options", vs)],
            h.set am (.obj (machVal (b0.val n0) (m.withParsingMode x)))⟩) := by
        simp [execs, exec, eval, evals, lookup, get, callName, optVal, bindParams, zero_machine, coerce, e]
      simp only [List.map_cons, rangeLoop, List.foldl_cons]
      rw [jumps_noLabels rfl, e1]
      refine Eq.trans (ih _ _ (List.getElem?_set_self hl)) ?_
      simp

theorem execAll_modes : ∀ (xs : List Int) (m : Machine), ∃ out, m.execAll (xs.map Op.withParsingMode) = .ok (xs.foldl Machine.withParsingMode m, out) := by
  intro xs
  induction xs with
  | nil => intro m; exact ⟨[], rfl⟩
  | cons x xs ih =>
      intro m
      obtain ⟨out, e⟩ := ih (m.withParsingMode x)
      refine ⟨.unit :: out, ?_⟩
      simp [Machine.execAll, Machine.exec, e]

theorem newMachine_modes (xs : List Int) : newMachine (xs.map withParsingMode) =
    .ok (if (xs.foldl Machine.withParsingMode { parsingModeSet := false }).parsingModeSet then xs.foldl Machine.withParsingMode { parsingModeSet := false }
      else (xs.foldl Machine.withParsingMode { parsingModeSet := false }).withParsingMode DefaultParsingMode) := by
  have : (xs.map withParsingMode).flatten = xs.map Op.withParsingMode := by
    induction xs with
    | nil => rfl
    | cons x xs ih => simp [withParsingMode] at ih ⊢; exact ih
  obtain ⟨out, e⟩ := execAll_modes xs { parsingModeSet := false }
  simp only [newMachine, this, e]
  rfl

theorem mode_start {m : Machine} (x : Int) (h : m.startParsingAt < 194) : (m.withParsingMode x).startParsingAt < 194 := by
  unfold Machine.withParsingMode
  simp only
  split
  · exact (by decide : Tables.enMain < 194)
  · split
    · exact (by decide : Tables.enRfc8141Only < 194)
    · split
      · exact (by decide : Tables.enScimOnly < 194)
      · exact h

theorem modes_start : ∀ (xs : List Int) (m : Machine), m.startParsingAt < 194 → (xs.foldl Machine.withParsingMode m).startParsingAt < 194 := by
  intro xs
  induction xs with
  | nil => intro m h; exact h
  | cons x xs ih => intro m h; exact ih _ (mode_start x h)

theorem newMachine_call (xs : List Int) : ∃ m', newMachine (xs.map withParsingMode) = .ok m' ∧ m'.startParsingAt < 194 ∧
    callFn prog (callN prog X (n + 3)) newMachineFn none [.list (xs.map optVal)] true h =
      .ok ([.ptr "machine" (some h.length)], h ++ [.obj (machVal (Buf.nil.val 0) m')]) := by
  refine ⟨_, newMachine_modes xs, ?_, ?_⟩
  · have h1 := modes_start xs { parsingModeSet := false } (by decide)
    split
    · exact h1
    · exact mode_start DefaultParsingMode h1
  · have hf : callFn prog (callN prog X (n + 3)) newMachineFn none [.list (xs.map optVal)] true h =
        callN prog X (n + 3) [.name "Machine"] [("options", .list (xs.map optVal))] newMachineFn.body h := by
      simp [newMachineFn, callFn, bindParams]
    have s1 : exec prog X (callN prog X (n + 2)) (n + 2) (.define ["m"] (.cons (.un .addr (.lit (.name "machine") (.cons "parsingModeSet" (.id "false") .nil))) .nil))
        ⟨[("options", .list (xs.map optVal))], h⟩ = .ok (.next, ⟨[("m", .ptr "machine" (some h.length)), ("options", .list (xs.map optVal))],
          h ++ [.obj (machVal (Buf.nil.val 0) { parsingModeSet := false })]⟩) := by
      simp [exec, evals, eval, evalElems, one, lookup, get, c_false, fill_machine, coerceDefault, coerce]
    have s2 := options_loop (X := X) (n := n) (am := h.length) (b0 := .nil) (n0 := 0) (vs := .list (xs.map optVal)) xs
      (h ++ [.obj (machVal (Buf.nil.val 0) { parsingModeSet := false })]) { parsingModeSet := false } (by simp)
    have s2' : exec prog X (callN prog X (n + 2)) (n + 2) (.range "o" (.id "options")
        (.cons (.expr (.call (.id "o") (.cons (.id "m") .nil) false)) .nil))
        ⟨[("m", .ptr "machine" (some h.length)), ("options", .list (xs.map optVal))], h ++ [.obj (machVal (Buf.nil.val 0) { parsingModeSet := false })]⟩ =
        .ok (.next, ⟨[("m", .ptr "machine" (some h.length)), ("options", .list (xs.map optVal))],
          h ++ [.obj (machVal (Buf.nil.val 0) (xs.foldl Machine.withParsingMode { parsingModeSet := false }))]⟩) := by
      simp only [exec, eval, lookup, get, Res.some!_some, Res.ok_bind, Res.pure_eq]
      refine s2.trans ?_
      simp
    generalize hm : xs.foldl Machine.withParsingMode { parsingModeSet := false } = m at s2'
    have hat : (h ++ [Cell.obj (machVal (Buf.nil.val 0) m)])[h.length]? = some (.obj (machVal (Buf.nil.val 0) m)) := by simp
    have hc : eval prog X (callN prog X (n + 2)) (.un .not (.sel (.id "m") "parsingModeSet"))
        ⟨[("m", .ptr "machine" (some h.length)), ("options", .list (xs.map optVal))], h ++ [.obj (machVal (Buf.nil.val 0) m)]⟩ =
        .ok ([.bool (!m.parsingModeSet)], ⟨[("m", .ptr "machine" (some h.length)), ("options", .list (xs.map optVal))],
          h ++ [.obj (machVal (Buf.nil.val 0) m)]⟩) := by
      simp [eval, one, lookup, get, field, loadObj, machVal]
    have hr : ∀ hh, execs prog X (callN prog X (n + 2)) (n + 2) (.cons (.ret (.cons (.id "m") .nil)) .nil)
        ⟨[("m", .ptr "machine" (some h.length)), ("options", .list (xs.map optVal))], hh⟩ =
        .ok (.ret [.ptr "machine" (some h.length)], ⟨[("m", .ptr "machine" (some h.length)), ("options", .list (xs.map optVal))], hh⟩) := by
      intro hh
      simp [execs, exec, evals, eval, lookup, get]
    have e1 : execs prog X (callN prog X (n + 2)) (n + 2) newMachineFn.body ⟨[("options", .list (xs.map optVal))], h⟩ =
        .ok (.ret [.ptr "machine" (some h.length)], ⟨[("m", .ptr "machine" (some h.length)), ("options", .list (xs.map optVal))],
          h ++ [.obj (machVal (Buf.nil.val 0) (if m.parsingModeSet then m else m.withParsingMode DefaultParsingMode))]⟩) := by
      refine (execs_next s1).trans ((execs_next s2').trans ?_)
      cases hs : m.parsingModeSet with
      | true =>
          rw [hs] at hc
          refine (execs_next (exec_ifS_false hc)).trans ?_
          rw [hr]
          rfl
      | false =>
          rw [hs] at hc
          have hw := setMode_call (X := X) (n := n + 1) (x := 1) hat
          have hbody : execs prog X (callN prog X (n + 2)) (n + 2)
              (.cons (.expr (.call (.sel (.id "m") "WithParsingMode") (.cons (.id "DefaultParsingMode") .nil) false)) .nil)
              ⟨[("m", .ptr "machine" (some h.length)), ("options", .list (xs.map optVal))], h ++ [.obj (machVal (Buf.nil.val 0) m)]⟩ =
              .ok (.next, ⟨[("m", .ptr "machine" (some h.length)), ("options", .list (xs.map optVal))],
                h ++ [.obj (machVal (Buf.nil.val 0) (m.withParsingMode DefaultParsingMode))]⟩) := by
            simp [execs, exec, eval_method, get, method, find_setMode, evals, eval, lookup, c_Default, hw]
          refine (execs_next (exec_if_true rfl hc hbody)).trans ?_
          rw [hr]
          rfl
    rw [hf, callN_ret e1 rfl]
    simp [zero_machine, coerce]

/-! ## `Parse` -/

/-- Calls of methods of what a call returns. -/
theorem eval_call_method {P : Prog} {call : Call} {e : Expr} {as args : Exprs} {f : String} {s s' : Bool} {st : State} :
    eval P X call (.call (.sel (.call e as s) f) args s') st = ((eval P X call (.call e as s) st) >>= fun a =>
      one a.1 >>= fun v => method P a.2.heap v f >>= fun y =>
      (evals P X call args ⟨a.2.env, y.2.2⟩) >>= fun x =>
      (callFn P call y.1 (some y.2.1) x.1 s' x.2.heap) >>= fun y => .ok (y.1, { x.2 with heap := y.2 })) := by
  rw [eval.eq_def]
  rfl

theorem parse_call_seen {b : Buf} {w : Seen} {input : Bytes} {r : Parsed} (hm : h[am]? = some (.obj (machVal (b0.val n0) m))) (hb : b.seen w h input)
    (hq : w.ro = true → parseWrites X.bits w.no m input = false) (hs : m.startParsingAt < 194) (hr : m.parseBits X.bits input = .ok r) (hn : 9 * input.length + 70 ≤ n) :
    ∃ h' ao, callFn prog (callN prog X n) parseFn (some (.ptr "machine" (some am))) [b.val input.length] false h =
        .ok ([.ptr "URN" (r.urn.map fun _ => ao), errVal r.err], h') ∧
      h'[am]? = some (.obj (machVal (b.val input.length) r.m)) ∧ b.seen w h' r.m.data ∧ r.m.data.length = input.length ∧
      (∀ u, r.urn = some u → UrnAt h' h.length ao u) ∧
      ∀ a, a < h.length → a ≠ am → b.away a → h'[a]? = h[a]? := by
  have := parse_seen (X := X) hm hb hq hs hr n hn
  simp only [runMethod, method, find_parse, Res.ok_bind] at this
  exact this

theorem parse_call {b : Buf} {input : Bytes} {r : Parsed} (hm : h[am]? = some (.obj (machVal (b0.val n0) m))) (hb : b.has h input)
    (hs : m.startParsingAt < 194) (hr : m.parseBits X.bits input = .ok r) (hn : 9 * input.length + 70 ≤ n) :
    ∃ h' ao, callFn prog (callN prog X n) parseFn (some (.ptr "machine" (some am))) [b.val input.length] false h =
        .ok ([.ptr "URN" (r.urn.map fun _ => ao), errVal r.err], h') ∧
      h'[am]? = some (.obj (machVal (b.val input.length) r.m)) ∧ b.has h' r.m.data ∧ r.m.data.length = input.length ∧
      (∀ u, r.urn = some u → UrnAt h' h.length ao u) ∧
      ∀ a, a < h.length → a ≠ am → b.away a → h'[a]? = h[a]? := by
  have := parse_text (X := X) hm hb hs hr n hn
  simp only [runMethod, method, find_parse, Res.ok_bind] at this
  exact this

theorem eqVal_err {w : Nat} (e : Option Err) : binVal w .ne (errVal e) .nil = some (.bool e.isSome) := by
  cases e <;> rfl

/-- A new URN, or a nil pointer. -/
def UrnNew (h : Heap) (lo : Nat) (p : Option Nat) (o : Option URN) : Prop :=
  match o with
  | none => p = none
  | some u => ∃ a, p = some a ∧ UrnAt h lo a u

theorem UrnAt.mono {lo lo' a : Nat} {u : URN} (r : UrnAt h lo a u) (hl : lo' ≤ lo) : UrnAt h lo' a u := by
  obtain ⟨h1, sp, h2, h3⟩ := r
  refine ⟨by omega, sp, h2, ?_⟩
  split <;> rename_i hs
  · rw [hs] at h3; exact h3
  · rw [hs] at h3
    obtain ⟨b, hb, hc, hd⟩ := h3
    exact ⟨b, hb, hc, by omega⟩

theorem UrnNew.ptr {lo : Nat} {p : Option Nat} {o : Option URN} (r : UrnNew h lo p o) : UrnPtr h p o := by
  cases o with
  | none => exact r
  | some u =>
      obtain ⟨a, rfl, r⟩ := r
      exact r.ptr

/-- Integers of the size of an `int` are enough. -/
theorem parseBits_start {m : Machine} {s : Bytes} (hs : Start m.startParsingAt) (hf : X.Fits s) : m.parseBits X.bits s = m.parse s :=
  parseBits_ok hs ⟨by have := X.bits_eq; omega, hf⟩

theorem parseBits_new {m : Machine} {s : Bytes} {opts : List Opt} (hf : X.Fits s) (hm : newMachine opts = .ok m) :
    m.parseBits X.bits s = m.parse s := by
  obtain ⟨m', h1, h2⟩ := newMachine_ok opts
  rw [h1] at hm
  cases hm
  exact parseBits_start h2 hf

/-- `urn.Parse` of the text and of the model, with an input that may be written to, or if the model does not write to it. -/
theorem pkgParse_seen {b : Buf} {w : Seen} {input : Bytes} {r : ParseResult} (xs : List Int) (hb : b.seen w h input)
    (hq : w.ro = true → ∀ m, newMachine (xs.map withParsingMode) = .ok m → parseWrites X.bits w.no m input = false) (hf : X.Fits input) (hr : parse input (xs.map withParsingMode) = .ok r) (hn : 9 * input.length + 75 ≤ n) :
    ∃ h' p, callFn prog (callN prog X n) pkgParseFn none (b.val input.length :: xs.map optVal) false h =
        .ok ([.ptr "URN" p, .bool r.ok], h') ∧ UrnNew h' h.length p r.urn ∧ b.seen w h' r.buf ∧ r.buf.length = input.length ∧
      ∀ a, a < h.length → b.away a → h'[a]? = h[a]? := by
  obtain ⟨k, rfl⟩ : ∃ k, n = k + 4 := ⟨n - 4, by omega⟩
  obtain ⟨m, hnew, hstart, hcall⟩ := newMachine_call (X := X) (n := k) (h := h) xs
  unfold parse at hr
  rw [hnew] at hr
  simp only [Run.ok_bind] at hr
  cases hp : m.parse input with
  | panic p => simp [hp] at hr
  | diverge => simp [hp] at hr
  | ok q =>
  simp only [hp, Run.ok_bind] at hr
  replace hp := (parseBits_new hf hnew).trans hp
  have hb1 : b.seen w (h ++ [.obj (machVal (Buf.nil.val 0) m)]) input := Buf.seen_append hb
  obtain ⟨h', ao, e, -, hbuf, hlen, hu, hfr⟩ := parse_call_seen (X := X) (n := k + 3) (am := h.length) (b0 := .nil) (n0 := 0) (by simp) hb1 (fun e => hq e m hnew) hstart hp (by omega)
  have hf : callFn prog (callN prog X (k + 4)) pkgParseFn none (b.val input.length :: xs.map optVal) false h =
      callN prog X (k + 4) [.ptr (.name "URN"), .name "bool"] [("u", b.val input.length), ("options", .list (xs.map optVal))] pkgParseFn.body h := by
    simp [pkgParseFn, callFn, bindParams, zero_bytes, coerce]
  have s1 : exec prog X (callN prog X (k + 3)) (k + 3) (.define ["urn", "err"]
      (.cons (.call (.sel (.call (.id "NewMachine") (.cons (.id "options") .nil) true) "Parse") (.cons (.id "u") .nil) false) .nil))
      ⟨[("u", b.val input.length), ("options", .list (xs.map optVal))], h⟩ =
      .ok (.next, ⟨[("urn", .ptr "URN" (q.urn.map fun _ => ao)), ("err", errVal q.err), ("u", b.val input.length), ("options", .list (xs.map optVal))], h'⟩) := by
    have hcd : coerceDefault (errVal q.err) = errVal q.err := by cases q.err <;> rfl
    have hcp : ∀ p, coerceDefault (.ptr "URN" p) = .ptr "URN" p := fun _ => rfl
    simp [exec, evals, eval_call_method, eval, lookup, get, callName, find_newMachine, hcall, one, method, find_parse, e, hcd, hcp]
  have hc : eval prog X (callN prog X (k + 3)) (.bin .ne (.id "err") (.id "nil"))
      ⟨[("urn", .ptr "URN" (q.urn.map fun _ => ao)), ("err", errVal q.err), ("u", b.val input.length), ("options", .list (xs.map optVal))], h'⟩ =
      .ok ([.bool q.err.isSome], ⟨[("urn", .ptr "URN" (q.urn.map fun _ => ao)), ("err", errVal q.err), ("u", b.val input.length),
        ("options", .list (xs.map optVal))], h'⟩) :=
    eval_bin (op := .ne) ⟨by decide, by decide⟩ (x := errVal q.err) (y := .nil) (by simp [eval, lookup, get]) (by simp [eval, lookup, get, c_nil]) (eqVal_err _)
  have hfr' : ∀ a, a < h.length → b.away a → h'[a]? = h[a]? := by
    intro a ha hb'
    rw [hfr a (by simp; omega) (by omega) hb', List.getElem?_append_left ha]
  cases herr : q.err with
  | some er =>
      rw [herr] at hr
      cases hr
      have e1 : execs prog X (callN prog X (k + 3)) (k + 3) pkgParseFn.body ⟨[("u", b.val input.length), ("options", .list (xs.map optVal))], h⟩ =
          .ok (.ret [.nil, .bool false], ⟨[("urn", .ptr "URN" (q.urn.map fun _ => ao)), ("err", errVal q.err), ("u", b.val input.length),
        ("options", .list (xs.map optVal))], h'⟩) := by
        refine (execs_next s1).trans ?_
        rw [execs]
        rw [herr] at hc ⊢
        have hret : execs prog X (callN prog X (k + 3)) (k + 3) (.cons (.ret (.cons (.id "nil") (.cons (.id "false") .nil))) .nil)
            ⟨[("urn", .ptr "URN" (q.urn.map fun _ => ao)), ("err", errVal (some er)), ("u", b.val input.length), ("options", .list (xs.map optVal))], h'⟩ =
            .ok (.ret [.nil, .bool false], ⟨[("urn", .ptr "URN" (q.urn.map fun _ => ao)), ("err", errVal (some er)), ("u", b.val input.length),
              ("options", .list (xs.map optVal))], h'⟩) := by
          simp [execs, exec, evals, eval, lookup, get, c_nil, c_false]
        rw [exec_if_true rfl hc hret]
        rfl
      refine ⟨h', none, ?_, rfl, hbuf, hlen, hfr'⟩
      rw [hf, callN_ret e1 rfl]
      simp [zero_urn, zero_bool, coerce]
  | none =>
      rw [herr] at hr
      cases hr
      have e1 : execs prog X (callN prog X (k + 3)) (k + 3) pkgParseFn.body ⟨[("u", b.val input.length), ("options", .list (xs.map optVal))], h⟩ =
          .ok (.ret [.ptr "URN" (q.urn.map fun _ => ao), .bool true], ⟨[("urn", .ptr "URN" (q.urn.map fun _ => ao)), ("err", errVal q.err), ("u", b.val input.length),
        ("options", .list (xs.map optVal))], h'⟩) := by
        refine (execs_next s1).trans ?_
        rw [herr] at hc ⊢
        refine (execs_next (exec_ifS_false hc)).trans ?_
        simp [execs, exec, evals, eval, lookup, get, c_true]
      refine ⟨h', q.urn.map fun _ => ao, ?_, ?_, hbuf, hlen, hfr'⟩
      · rw [hf, callN_ret e1 rfl]
        simp [zero_urn, zero_bool, coerce]
      · cases hq : q.urn with
        | none => rfl
        | some u => exact ⟨ao, rfl, (hu u hq).mono (by simp)⟩

/-- `urn.Parse` of the text and of the model. -/
theorem pkgParse_call {b : Buf} {input : Bytes} {r : ParseResult} (xs : List Int) (hb : b.has h input)
    (hf : X.Fits input) (hr : parse input (xs.map withParsingMode) = .ok r) (hn : 9 * input.length + 75 ≤ n) :
    ∃ h' p, callFn prog (callN prog X n) pkgParseFn none (b.val input.length :: xs.map optVal) false h =
        .ok ([.ptr "URN" p, .bool r.ok], h') ∧ UrnNew h' h.length p r.urn ∧ b.has h' r.buf ∧ r.buf.length = input.length ∧
      ∀ a, a < h.length → b.away a → h'[a]? = h[a]? := by
  obtain ⟨h', p, h1, h2, h3, h4⟩ := pkgParse_seen (X := X) xs (Buf.seen_has.2 hb) (fun e => by cases e) hf hr hn
  exact ⟨h', p, h1, h2, Buf.seen_has.1 h3, h4⟩

end
end Urn.GoLang
