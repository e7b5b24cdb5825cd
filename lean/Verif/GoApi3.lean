import Verif.GoApi2
/-!
# The JSON methods in the text and in the model
-/
set_option autoImplicit false
set_option linter.unusedSimpArgs false
set_option maxRecDepth 10000000
namespace Urn.GoLang

theorem c_errInvalidURN : get "errInvalidURN" prog.consts = some (.str (lit "invalid URN: %s")) := by kernel_rfl
theorem c_errInvalidSCIMURN : get "errInvalidSCIMURN" prog.consts = some (.str (lit "invalid SCIM URN: %s")) := by kernel_rfl
theorem c_errInvalidURN8141 : get "errInvalidURN8141" prog.consts = some (.str (lit "invalid URN per RFC 8141: %s")) := by kernel_rfl

theorem sprintf_urn (s : Bytes) : sprintf (lit "invalid URN: %s") [.str s] = some (lit "invalid URN: " ++ s ++ []) := by kernel_rfl
theorem sprintf_scim (s : Bytes) : sprintf (lit "invalid SCIM URN: %s") [.str s] = some (lit "invalid SCIM URN: " ++ s ++ []) := by kernel_rfl
theorem sprintf_8141 (s : Bytes) : sprintf (lit "invalid URN per RFC 8141: %s") [.str s] = some (lit "invalid URN per RFC 8141: " ++ s ++ []) := by kernel_rfl

/-- The error values of the `UnmarshalJSON` methods; `d` is the JSON text. -/
def jerrVal (X : Ext) (d : Bytes) : Option JErr → Val
  | none => .nil
  | some .json => .err (X.jsonErr d)
  | some (.invalidURN s) => .err (lit "invalid URN: " ++ s)
  | some (.invalidSCIMURN s) => .err (lit "invalid SCIM URN: " ++ s)
  | some (.invalidURN8141 s) => .err (lit "invalid URN per RFC 8141: " ++ s)

section
variable {X : Ext} {n : Nat} {h : Heap} {a : Nat} {b : Buf} {d : Bytes}

theorem toStr_val (hb : b.has h d) : toStr h (b.val d.length) = .ok (.str d) := by
  cases b with
  | nil => cases hb; rfl
  | part a pre post cap =>
      have := loadBytes_cellOf (w := .all) (i := 0) (n := d.length) hb.1 (by omega)
      simp only [Nat.add_zero, List.drop_zero, List.take_length] at this
      simp only [Buf.val, toStr, this, Res.ok_bind, Res.pure_eq]

theorem eval_unmarshal {P : Prog} {call : Call} {e : Expr} {x : String} {s : Bool} {st st' : State} {v : Val} (hp : get "json" st.env = none)
    (he : eval P X call e st = .ok ([v], st')) (hv : toStr st'.heap v = .ok (.str d)) :
    eval P X call (.call (.sel (.id "json") "Unmarshal") (.cons e (.cons (.un .addr (.id x)) .nil)) s) st =
      match X.json.unmarshal d with
      | none => .ok ([.err (X.jsonErr d)], st')
      | some t => (Res.some! (set x (.str t) st'.env)) >>= fun env => .ok ([.nil], { st' with env := env }) := by
  rw [eval.eq_def]
  simp [hp, isExt, he, one, hv]
  cases X.json.unmarshal d <;> rfl

theorem execs_nil {call : Call} {F : Nat} (st : State) : execs prog X call F .nil st = .ok (.next, st) := by simp only [execs]

/-- `if init; c { ... } else { ... }` -/
theorem exec_if_res {call : Call} {fuel : Nat} {init ss a b : Stmts} {c : Expr} {st st1 st2 : State} {v : Bool} {R : Res (Sig × State)}
    (hi : execs prog X call fuel init st = .ok (.next, st1)) (hc : eval prog X call c st1 = .ok ([.bool v], st2))
    (hs : ss = if v then a else b) (hl : noLabels ss = true) (hb : execs prog X call fuel ss st2 = R) :
    exec prog X call fuel (.if_ init c a b) st = inScope st.env.length (inScope st2.env.length R) := by
  subst hs
  cases v with
  | true =>
      simp only [if_true] at hl hb
      simp only [exec, hi, hc, Res.ok_bind, jumps_noLabels hl, hb]
  | false =>
      simp only [Bool.false_eq_true, if_false] at hl hb
      simp only [exec, hi, hc, Res.ok_bind, jumps_noLabels hl, hb]

theorem exec_if_init {call : Call} {fuel : Nat} {init ss a b : Stmts} {c : Expr} {st st1 st2 st3 : State} {v : Bool} {sg : Sig}
    (hi : execs prog X call fuel init st = .ok (.next, st1)) (hc : eval prog X call c st1 = .ok ([.bool v], st2))
    (hs : ss = if v then a else b) (hl : noLabels ss = true) (hb : execs prog X call fuel ss st2 = .ok (sg, st3)) :
    exec prog X call fuel (.if_ init c a b) st = inScope st.env.length (inScope st2.env.length (.ok (sg, st3))) :=
  exec_if_res hi hc hs hl hb

theorem callN_panic {n : Nat} {rs : List Ty} {env : Env} {body : Stmts} {p : Panic}
    (he : execs prog X (callN prog X n) n body ⟨env, h⟩ = .panic p) : callN prog X (n + 1) rs env body h = .panic p := by
  rw [callN, he]
  cases n <;> rfl

/-- `var str string; if err := json.Unmarshal(bytes, &str); err != nil { return err }` and more -/
def decodeStmts (rest : Stmts) : Stmts :=
  .cons (.var "str" (.name "string"))
    (.cons (.if_ (.cons (.define ["err"] (.cons (.call (.sel (.id "json") "Unmarshal")
        (.cons (.id "bytes") (.cons (.un .addr (.id "str")) .nil)) false) .nil)) .nil)
      (.bin .ne (.id "err") (.id "nil")) (.cons (.ret (.cons (.id "err") .nil)) .nil) .nil) rest)

theorem decode_fail {call : Call} {F : Nat} {rest : Stmts} {r : String} {v : Val} (hr : r = "u" ∨ r = "s") (hb : b.has h d)
    (hj : X.json.unmarshal d = none) :
    execs prog X call F (decodeStmts rest) ⟨[(r, v), ("bytes", b.val d.length)], h⟩ =
      .ok (.ret [jerrVal X d (some .json)], ⟨[("str", .str []), (r, v), ("bytes", b.val d.length)], h⟩) := by
  have hg : get "json" [("str", Val.str []), (r, v), ("bytes", b.val d.length)] = none := by rcases hr with rfl | rfl <;> rfl
  have hgb : get "bytes" [("str", Val.str []), (r, v), ("bytes", b.val d.length)] = some (b.val d.length) := by rcases hr with rfl | rfl <;> rfl
  have hgn : get "nil" [("err", Val.err (X.jsonErr d)), ("str", Val.str []), (r, v), ("bytes", b.val d.length)] = none := by rcases hr with rfl | rfl <;> rfl
  have he := eval_unmarshal (P := prog) (X := X) (call := call) (e := .id "bytes") (x := "str") (s := false)
    (st := ⟨[("str", .str []), (r, v), ("bytes", b.val d.length)], h⟩)
    (st' := ⟨[("str", .str []), (r, v), ("bytes", b.val d.length)], h⟩) (v := b.val d.length) hg (by simp [eval, lookup, hgb]) (toStr_val hb)
  rw [hj] at he
  have hi : execs prog X call F (.cons (.define ["err"] (.cons (.call (.sel (.id "json") "Unmarshal")
        (.cons (.id "bytes") (.cons (.un .addr (.id "str")) .nil)) false) .nil)) .nil)
      ⟨[("str", .str []), (r, v), ("bytes", b.val d.length)], h⟩ =
      .ok (.next, ⟨[("err", .err (X.jsonErr d)), ("str", .str []), (r, v), ("bytes", b.val d.length)], h⟩) := by
    simp [execs, exec, evals, he, coerceDefault, coerce]
  have hc : eval prog X call (.bin .ne (.id "err") (.id "nil")) ⟨[("err", .err (X.jsonErr d)), ("str", .str []), (r, v), ("bytes", b.val d.length)], h⟩ =
      .ok ([.bool true], ⟨[("err", .err (X.jsonErr d)), ("str", .str []), (r, v), ("bytes", b.val d.length)], h⟩) :=
    eval_bin (op := .ne) ⟨by decide, by decide⟩ (x := .err (X.jsonErr d)) (y := .nil) (by simp [eval, lookup, get]) (by simp [eval, lookup, hgn, c_nil]) rfl
  have hb' : execs prog X call F (.cons (.ret (.cons (.id "err") .nil)) .nil)
      ⟨[("err", .err (X.jsonErr d)), ("str", .str []), (r, v), ("bytes", b.val d.length)], h⟩ =
      .ok (.ret [.err (X.jsonErr d)], ⟨[("err", .err (X.jsonErr d)), ("str", .str []), (r, v), ("bytes", b.val d.length)], h⟩) := by
    simp [execs, exec, evals, eval, lookup, get]
  have hif := exec_if_init (ss := .cons (.ret (.cons (.id "err") .nil)) .nil) (b := .nil) hi hc rfl rfl hb'
  have hv : exec prog X call F (.var "str" (.name "string")) ⟨[(r, v), ("bytes", b.val d.length)], h⟩ =
      .ok (.next, ⟨[("str", .str []), (r, v), ("bytes", b.val d.length)], h⟩) := by
    simp only [exec, zero_string]
  refine (execs_next hv).trans ?_
  rw [execs, hif]
  rfl

theorem decode_ok {call : Call} {F : Nat} {rest : Stmts} {r : String} {v : Val} {s : Bytes} (hr : r = "u" ∨ r = "s") (hb : b.has h d)
    (hj : X.json.unmarshal d = some s) :
    execs prog X call F (decodeStmts rest) ⟨[(r, v), ("bytes", b.val d.length)], h⟩ =
      execs prog X call F rest ⟨[("str", .str s), (r, v), ("bytes", b.val d.length)], h⟩ := by
  have hg : get "json" [("str", Val.str []), (r, v), ("bytes", b.val d.length)] = none := by rcases hr with rfl | rfl <;> rfl
  have hgb : get "bytes" [("str", Val.str []), (r, v), ("bytes", b.val d.length)] = some (b.val d.length) := by rcases hr with rfl | rfl <;> rfl
  have hgn : get "nil" [("err", Val.nil), ("str", Val.str s), (r, v), ("bytes", b.val d.length)] = none := by rcases hr with rfl | rfl <;> rfl
  have he := eval_unmarshal (P := prog) (X := X) (call := call) (e := .id "bytes") (x := "str") (s := false)
    (st := ⟨[("str", .str []), (r, v), ("bytes", b.val d.length)], h⟩)
    (st' := ⟨[("str", .str []), (r, v), ("bytes", b.val d.length)], h⟩) (v := b.val d.length) hg (by simp [eval, lookup, hgb]) (toStr_val hb)
  rw [hj] at he
  have hi : execs prog X call F (.cons (.define ["err"] (.cons (.call (.sel (.id "json") "Unmarshal")
        (.cons (.id "bytes") (.cons (.un .addr (.id "str")) .nil)) false) .nil)) .nil)
      ⟨[("str", .str []), (r, v), ("bytes", b.val d.length)], h⟩ =
      .ok (.next, ⟨[("err", .nil), ("str", .str s), (r, v), ("bytes", b.val d.length)], h⟩) := by
    simp [execs, exec, evals, he, coerceDefault, coerce, set]
  have hc : eval prog X call (.bin .ne (.id "err") (.id "nil")) ⟨[("err", .nil), ("str", .str s), (r, v), ("bytes", b.val d.length)], h⟩ =
      .ok ([.bool false], ⟨[("err", .nil), ("str", .str s), (r, v), ("bytes", b.val d.length)], h⟩) :=
    eval_bin (op := .ne) ⟨by decide, by decide⟩ (x := .nil) (y := .nil) (by simp [eval, lookup, get]) (by simp [eval, lookup, hgn, c_nil]) rfl
  have hif := exec_if_init (ss := .nil) (a := .cons (.ret (.cons (.id "err") .nil)) .nil) (b := .nil) hi hc rfl rfl
    (execs_nil _)
  have hv : exec prog X call F (.var "str" (.name "string")) ⟨[(r, v), ("bytes", b.val d.length)], h⟩ =
      .ok (.next, ⟨[("str", .str []), (r, v), ("bytes", b.val d.length)], h⟩) := by
    simp only [exec, zero_string]
  refine (execs_next hv).trans ?_
  rw [execs, hif]
  rfl

/-- A call of `Parse` with the bytes of a string. -/
theorem eval_parse {s : Bytes} {env : Env} {r : ParseResult} {opts : Exprs} (xs : List Int) (hs : get "str" env = some (.str s)) (hp : get "Parse" env = none)
    (ho : ∀ h, evals prog X (callN prog X n) opts ⟨env, h⟩ = .ok (xs.map optVal, ⟨env, h⟩))
    (hf : X.Fits s) (hr : parse s (xs.map withParsingMode) = .ok r) (hn : 9 * s.length + 75 ≤ n) :
    ∃ h' p, eval prog X (callN prog X n) (.call (.id "Parse") (.cons (.conv (.slice (.name "byte")) (.id "str")) opts) false) ⟨env, h⟩ =
        .ok ([.ptr "URN" p, .bool r.ok], ⟨env, h'⟩) ∧ UrnNew h' (h.length + 1) p r.urn ∧ ∀ a, a < h.length → h'[a]? = h[a]? := by
  have hb : (Buf.part h.length [] [] s.length).has (h ++ [.arr s]) s := ⟨by simp, Nat.le_refl _, by simp⟩
  obtain ⟨h', p, e, hu, -, -, hf⟩ := pkgParse_call (X := X) xs hb hf hr hn
  refine ⟨h', p, ?_, ?_, ?_⟩
  · have : (Buf.part h.length [] [] s.length).val s.length = .bytes h.length 0 s.length s.length := rfl
    rw [this] at e
    simp [eval, evals, lookup, hs, newBytes, ho, callName, hp, find_pkgParse, e]
  · simpa using hu
  · intro a ha
    rw [hf a (by simp; omega) (by simp [Buf.away]; omega), List.getElem?_append_left ha]

def tailURN : Stmts :=
  .cons (.if_ (.cons (.define ["value", "ok"] (.cons (.call (.id "Parse") (.cons (.conv (.slice (.name "byte")) (.id "str")) .nil) false) .nil)) .nil)
      (.un .not (.id "ok"))
      (.cons (.ret (.cons (.call (.sel (.id "fmt") "Errorf") (.cons (.id "errInvalidURN") (.cons (.id "str") .nil)) false) .nil)) .nil)
      (.cons (.assign (.cons (.un .deref (.id "u")) .nil) (.cons (.un .deref (.id "value")) .nil)) .nil))
    (.cons (.ret (.cons (.id "nil") .nil)) .nil)

theorem unmarshalFn_body : unmarshalFn.body = decodeStmts tailURN := rfl

/-- A URN that is at an address that is not in the SCIM structs stays, if the memory before `lo` is not changed. -/
theorem UrnPtr.keep {h h' : Heap} {u : URN} (r : UrnPtr h (some a) (some u)) (hk : ∀ c, c < h.length → h'[c]? = h[c]?) :
    UrnPtr h' (some a) (some u) := by
  obtain ⟨_, v, ha, hv, sp, tl, h1, h2, h3⟩ := r
  cases ha
  refine ⟨a, v, rfl, by rw [hk _ (List.getElem?_eq_some_iff.1 hv).1]; exact hv, sp, tl, h1, h2, ?_⟩
  unfold ScimAt at h3 ⊢
  split
  · rename_i hs; rw [hs] at h3; exact h3
  · rename_i hs
    rw [hs] at h3
    obtain ⟨c, hc, hd⟩ := h3
    exact ⟨c, hc, by rw [hk _ (List.getElem?_eq_some_iff.1 hd).1]; exact hd⟩

/-- What a pointer points to. -/
def derefPtr (h : Heap) : Option Nat → Res Val
  | none => .panic .nilDeref
  | some c => loadObj h c

theorem unmarshal_start {q : Option Nat} (n : Nat) : callFn prog (callN prog X n) unmarshalFn (some (.ptr "URN" q)) [b.val d.length] false h =
    callN prog X n [.name "error"] [("u", .ptr "URN" q), ("bytes", b.val d.length)] unmarshalFn.body h := by
  simp [unmarshalFn, callFn, bindParams, zero_bytes, coerce]

/-- `UnmarshalJSON` of a text that is not a JSON string. -/
theorem unmarshal_fail {q : Option Nat} (hb : b.has h d) (hj : X.json.unmarshal d = none) :
    callFn prog (callN prog X (n + 1)) unmarshalFn (some (.ptr "URN" q)) [b.val d.length] false h = .ok ([jerrVal X d (some .json)], h) := by
  have e1 := decode_fail (X := X) (call := callN prog X n) (F := n) (r := "u") (v := .ptr "URN" q) (rest := tailURN) (.inl rfl) hb hj
  rw [← unmarshalFn_body] at e1
  rw [unmarshal_start, callN_ret e1 rfl]
  simp [zero_error, coerce]

/-- `UnmarshalJSON` of a JSON string, with any receiver. -/
theorem unmarshal_parse {q : Option Nat} {s : Bytes} {r : ParseResult} (hb : b.has h d) (hj : X.json.unmarshal d = some s)
    (hf : X.Fits s) (hp : parse s = .ok r) (hn : 9 * s.length + 76 ≤ n) :
    ∃ h' p, UrnNew h' (h.length + 1) p r.urn ∧ (∀ c, c < h.length → h'[c]? = h[c]?) ∧
      callFn prog (callN prog X n) unmarshalFn (some (.ptr "URN" q)) [b.val d.length] false h =
        if r.ok = false then .ok ([jerrVal X d (some (.invalidURN s))], h')
        else derefPtr h' p >>= fun w => setDeref h' (.ptr "URN" q) w >>= fun h'' => .ok ([.nil], h'') := by
  obtain ⟨n, rfl⟩ : ∃ k, n = k + 1 := ⟨n - 1, by omega⟩
  obtain ⟨h', p, he, hu, hk⟩ := eval_parse (X := X) (n := n) (h := h) (env := [("str", .str s), ("u", .ptr "URN" q), ("bytes", b.val d.length)])
    (opts := .nil) [] rfl rfl (fun h => by simp [evals]) hf hp (by omega)
  refine ⟨h', p, hu, hk, ?_⟩
  have hi : execs prog X (callN prog X n) n (.cons (.define ["value", "ok"] (.cons (.call (.id "Parse") (.cons (.conv (.slice (.name "byte")) (.id "str")) .nil) false) .nil)) .nil)
      ⟨[("str", .str s), ("u", .ptr "URN" q), ("bytes", b.val d.length)], h⟩ =
      .ok (.next, ⟨[("value", .ptr "URN" p), ("ok", .bool r.ok), ("str", .str s), ("u", .ptr "URN" q), ("bytes", b.val d.length)], h'⟩) := by
    simp [execs, exec, evals, he, coerceDefault, coerce]
  have hc : eval prog X (callN prog X n) (.un .not (.id "ok")) ⟨[("value", .ptr "URN" p), ("ok", .bool r.ok), ("str", .str s), ("u", .ptr "URN" q), ("bytes", b.val d.length)], h'⟩ =
      .ok ([.bool (!r.ok)], ⟨[("value", .ptr "URN" p), ("ok", .bool r.ok), ("str", .str s), ("u", .ptr "URN" q), ("bytes", b.val d.length)], h'⟩) := by
    simp [eval, lookup, get]
  rw [unmarshal_start]
  cases hok : r.ok with
  | false =>
      rw [hok] at hi hc
      have hret : execs prog X (callN prog X n) n (.cons (.ret (.cons (.call (.sel (.id "fmt") "Errorf") (.cons (.id "errInvalidURN") (.cons (.id "str") .nil)) false) .nil)) .nil)
          ⟨[("value", .ptr "URN" p), ("ok", .bool false), ("str", .str s), ("u", .ptr "URN" q), ("bytes", b.val d.length)], h'⟩ =
          .ok (.ret [jerrVal X d (some (.invalidURN s))], ⟨[("value", .ptr "URN" p), ("ok", .bool false), ("str", .str s), ("u", .ptr "URN" q), ("bytes", b.val d.length)], h'⟩) := by
        simp [execs, exec, evals, eval_ext, get, isExt, eval, lookup, c_errInvalidURN, extCall, sprintf_urn, jerrVal]
      have hif := exec_if_init (b := (.cons (.assign (.cons (.un .deref (.id "u")) .nil) (.cons (.un .deref (.id "value")) .nil)) .nil)) hi hc rfl rfl hret
      have e1 : execs prog X (callN prog X n) n unmarshalFn.body ⟨[("u", .ptr "URN" q), ("bytes", b.val d.length)], h⟩ =
          .ok (.ret [jerrVal X d (some (.invalidURN s))], ⟨[("str", .str s), ("u", .ptr "URN" q), ("bytes", b.val d.length)], h'⟩) := by
        rw [unmarshalFn_body, decode_ok (.inl rfl) hb hj, tailURN, execs, hif]
        rfl
      rw [callN_ret e1 rfl]
      simp [zero_error, coerce]
  | true =>
      rw [hok] at hi hc
      have hset : execs prog X (callN prog X n) n (.cons (.assign (.cons (.un .deref (.id "u")) .nil) (.cons (.un .deref (.id "value")) .nil)) .nil)
          ⟨[("value", .ptr "URN" p), ("ok", .bool true), ("str", .str s), ("u", .ptr "URN" q), ("bytes", b.val d.length)], h'⟩ =
          derefPtr h' p >>= fun w => setDeref h' (.ptr "URN" q) w >>= fun h'' =>
            .ok (.next, ⟨[("value", .ptr "URN" p), ("ok", .bool true), ("str", .str s), ("u", .ptr "URN" q), ("bytes", b.val d.length)], h''⟩) := by
        cases p with
        | none => simp [execs, exec, evals, eval, lookup, get, derefPtr]
        | some c =>
            cases hl : loadObj h' c with
            | ok w => cases hs : setDeref h' (.ptr "URN" q) w <;> simp [execs, exec, evals, eval, lookup, get, derefPtr, hl, hs, one, store]
            | panic _ => simp [execs, exec, evals, eval, lookup, get, derefPtr, hl]
            | stuck => simp [execs, exec, evals, eval, lookup, get, derefPtr, hl]
            | more => simp [execs, exec, evals, eval, lookup, get, derefPtr, hl]
      have hif := exec_if_res (a := (.cons (.ret (.cons (.call (.sel (.id "fmt") "Errorf") (.cons (.id "errInvalidURN") (.cons (.id "str") .nil)) false) .nil)) .nil)) hi hc rfl rfl hset
      have e1 : execs prog X (callN prog X n) n unmarshalFn.body ⟨[("u", .ptr "URN" q), ("bytes", b.val d.length)], h⟩ =
          derefPtr h' p >>= fun w => setDeref h' (.ptr "URN" q) w >>= fun h'' =>
          .ok (.ret [.nil], ⟨[("str", .str s), ("u", .ptr "URN" q), ("bytes", b.val d.length)], h''⟩) := by
        rw [unmarshalFn_body, decode_ok (.inl rfl) hb hj, tailURN, execs, hif]
        cases derefPtr h' p with
        | ok w =>
            simp only [Res.ok_bind]
            cases setDeref h' (.ptr "URN" q) w with
            | ok h'' => simp [inScope, execs, exec, evals, eval, lookup, get, c_nil]
            | panic _ => rfl
            | stuck => rfl
            | more => rfl
        | panic _ => rfl
        | stuck => rfl
        | more => rfl
      simp only [Bool.true_eq_false, if_false]
      cases hd : derefPtr h' p with
      | ok w =>
          rw [hd] at e1
          simp only [Res.ok_bind] at e1 ⊢
          cases hs : setDeref h' (.ptr "URN" q) w with
          | ok h'' =>
              rw [hs] at e1
              rw [callN_ret e1 rfl]
              simp [zero_error, coerce]
          | panic _ => rw [hs] at e1; exact callN_panic e1
          | stuck => rw [hs] at e1; rw [callN, e1]; cases n <;> rfl
          | more => rw [hs] at e1; rw [callN, e1]; cases n <;> rfl
      | panic _ => rw [hd] at e1; exact callN_panic e1
      | stuck => rw [hd] at e1; rw [callN, e1]; cases n <;> rfl
      | more => rw [hd] at e1; rw [callN, e1]; cases n <;> rfl

/-- A URN in memory, with its SCIM struct, which is at `lo` or later. -/
def UrnWith (h : Heap) (lo a : Nat) (o : URN) : Prop :=
  ∃ sp, h[a]? = some (.obj (urnVal sp o)) ∧
    match o.scim with
    | none => sp = none
    | some s => ∃ b, sp = some b ∧ h[b]? = some (.obj (scimVal s)) ∧ lo ≤ b

theorem UrnWith.ptr {lo : Nat} {u : URN} (r : UrnWith h lo a u) : UrnPtr h (some a) (some u) := by
  obtain ⟨sp, h1, h2⟩ := r
  refine ⟨a, _, rfl, h1, sp, _, rfl, .inl rfl, ?_⟩
  unfold ScimAt
  split <;> rename_i hs
  · rw [hs] at h2; exact h2
  · rw [hs] at h2
    obtain ⟨b, hb, hc, _⟩ := h2
    exact ⟨b, hb, hc⟩

/-- `UnmarshalJSON` of URNs, with a receiver that is an object. -/
theorem unmarshal_obj {u u' : URN} {e : Option JErr} {w : Val} (ha : h[a]? = some (.obj w)) (hb : b.has h d)
    (hf : X.FitsJson d) (hr : u.unmarshalJSON X.json d = .ok (u', e)) : ∃ N, ∀ n, N ≤ n →
    ∃ h', callFn prog (callN prog X n) unmarshalFn (some (.ptr "URN" (some a))) [b.val d.length] false h = .ok ([jerrVal X d e], h') ∧
      (∀ c, c < h.length → c ≠ a → h'[c]? = h[c]?) ∧
      match e with
      | none => UrnWith h' (h.length + 1) a u'
      | some _ => h'[a]? = h[a]? ∧ u' = u := by
  have hal := (List.getElem?_eq_some_iff.1 ha).1
  unfold URN.unmarshalJSON at hr
  cases hj : X.json.unmarshal d with
  | none =>
      rw [hj] at hr
      cases hr
      refine ⟨1, fun n hn => ?_⟩
      obtain ⟨n, rfl⟩ : ∃ k, n = k + 1 := ⟨n - 1, by omega⟩
      exact ⟨h, unmarshal_fail hb hj, fun _ _ _ => rfl, rfl, rfl⟩
  | some s =>
      rw [hj] at hr
      cases hp : parse s with
      | panic p => simp [hp] at hr
      | diverge => simp [hp] at hr
      | ok q =>
      simp only [hp, Run.ok_bind] at hr
      refine ⟨9 * s.length + 76, fun n hn => ?_⟩
      obtain ⟨h', p, hu, hk, he⟩ := unmarshal_parse (X := X) (q := some a) hb hj (hf s hj) hp hn
      cases hok : q.ok with
      | false =>
          simp only [hok, if_true] at hr he
          cases hr
          exact ⟨h', he, fun c hc _ => hk c hc, hk a hal, rfl⟩
      | true =>
          simp only [hok, Bool.true_eq_false, if_false] at hr he
          cases hq : q.urn with
          | none => rw [hq] at hr; cases hr
          | some v =>
          rw [hq] at hr hu
          cases hr
          obtain ⟨c, rfl, hlo, sp, hv, hsp⟩ := hu
          have hw : h'[a]? = some (.obj w) := by rw [hk _ hal]; exact ha
          have hal' := (List.getElem?_eq_some_iff.1 hw).1
          refine ⟨h'.set a (.obj (urnVal sp u')), ?_, ?_, sp, List.getElem?_set_self hal', ?_⟩
          · rw [he]
            simp [derefPtr, loadObj, hv, setDeref, hw, jerrVal]
          · intro k h1 h2
            rw [List.getElem?_set_ne (Ne.symm h2), hk k h1]
          · split
            · rename_i hs; rw [hs] at hsp; exact hsp
            · rename_i hs
              rw [hs] at hsp
              obtain ⟨k, hk1, hk2, hk3⟩ := hsp
              exact ⟨k, hk1, by rw [List.getElem?_set_ne (by omega)]; exact hk2, hk3⟩

/-- `UnmarshalJSON` with a nil receiver. -/
theorem unmarshal_nil {u u' : URN} {e : Option JErr} (hb : b.has h d) (hf : X.FitsJson d) (hr : u.unmarshalJSON X.json d = .ok (u', e)) : ∃ N, ∀ n, N ≤ n →
    match e with
    | none => callFn prog (callN prog X n) unmarshalFn (some (.ptr "URN" none)) [b.val d.length] false h = .panic .nilDeref
    | some e => ∃ h', callFn prog (callN prog X n) unmarshalFn (some (.ptr "URN" none)) [b.val d.length] false h = .ok ([jerrVal X d (some e)], h') ∧
        ∀ c, c < h.length → h'[c]? = h[c]? := by
  unfold URN.unmarshalJSON at hr
  cases hj : X.json.unmarshal d with
  | none =>
      rw [hj] at hr
      cases hr
      refine ⟨1, fun n hn => ?_⟩
      obtain ⟨n, rfl⟩ : ∃ k, n = k + 1 := ⟨n - 1, by omega⟩
      exact ⟨h, unmarshal_fail hb hj, fun _ _ => rfl⟩
  | some s =>
      rw [hj] at hr
      cases hp : parse s with
      | panic p => simp [hp] at hr
      | diverge => simp [hp] at hr
      | ok q =>
      simp only [hp, Run.ok_bind] at hr
      refine ⟨9 * s.length + 76, fun n hn => ?_⟩
      obtain ⟨h', p, hu, hk, he⟩ := unmarshal_parse (X := X) (q := none) hb hj (hf s hj) hp hn
      cases hok : q.ok with
      | false =>
          simp only [hok, if_true] at hr he
          cases hr
          exact ⟨h', he, hk⟩
      | true =>
          simp only [hok, Bool.true_eq_false, if_false] at hr he
          cases hq : q.urn with
          | none => rw [hq] at hr; cases hr
          | some v =>
          rw [hq] at hr hu
          cases hr
          obtain ⟨c, rfl, hlo, sp, hv, hsp⟩ := hu
          show _ = _
          rw [he]
          simp [derefPtr, loadObj, hv, setDeref]

/-- `UnmarshalJSON` of URNs. -/
theorem unmarshal_call {u u' : URN} {e : Option JErr} (ha : UrnPtr h (some a) (some u)) (hb : b.has h d)
    (hf : X.FitsJson d) (hr : u.unmarshalJSON X.json d = .ok (u', e)) : ∃ N, ∀ n, N ≤ n →
    ∃ h', callFn prog (callN prog X n) unmarshalFn (some (.ptr "URN" (some a))) [b.val d.length] false h = .ok ([jerrVal X d e], h') ∧
      UrnPtr h' (some a) (some u') ∧ ∀ c, c < h.length → c ≠ a → h'[c]? = h[c]? := by
  have ⟨_, w, hw, hv, _⟩ := ha
  cases hw
  obtain ⟨N, hN⟩ := unmarshal_obj (X := X) hv hb hf hr
  refine ⟨N, fun n hn => ?_⟩
  obtain ⟨h', h1, h2, h3⟩ := hN n hn
  refine ⟨h', h1, ?_, h2⟩
  cases e with
  | none => exact h3.ptr
  | some e =>
      obtain ⟨h3, rfl⟩ := h3
      refine ha.keep fun c hc => ?_
      by_cases hca : c = a
      · rw [hca, h3]
      · exact h2 c hc hca

end
end Urn.GoLang
