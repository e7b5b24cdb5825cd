import Verif.GoApi3
/-!
# The methods of `scimschema.Type`, `SCIM` and `URN8141` in the text and in the model
-/
set_option autoImplicit false
set_option linter.unusedSimpArgs false
set_option maxRecDepth 10000000
namespace Urn.GoLang

def typeStringFn : Fn := fn% fnOf (some (.name "Type")) "String"
theorem find_typeString : findFn prog (some (.name "Type")) "String" = some typeStringFn := by kernel_rfl
def scimStringFn : Fn := fn% fnOf (some (.ptr (.name "SCIM"))) "String"
theorem find_scimString : findFn prog (some (.ptr (.name "SCIM"))) "String" = some scimStringFn := by kernel_rfl
theorem find_scimString_val : findFn prog (some (.name "SCIM")) "String" = none := by kernel_rfl
def scimMarshalFn : Fn := fn% fnOf (some (.name "SCIM")) "MarshalJSON"
theorem find_scimMarshal : findFn prog (some (.name "SCIM")) "MarshalJSON" = some scimMarshalFn := by kernel_rfl
theorem find_scimMarshal_ptr : findFn prog (some (.ptr (.name "SCIM"))) "MarshalJSON" = none := by kernel_rfl
def scimUnmarshalFn : Fn := fn% fnOf (some (.ptr (.name "SCIM"))) "UnmarshalJSON"
theorem find_scimUnmarshal : findFn prog (some (.ptr (.name "SCIM"))) "UnmarshalJSON" = some scimUnmarshalFn := by kernel_rfl
def marshal8141Fn : Fn := fn% fnOf (some (.name "URN8141")) "MarshalJSON"
theorem find_marshal8141 : findFn prog (some (.name "URN8141")) "MarshalJSON" = some marshal8141Fn := by kernel_rfl
theorem find_marshal8141_ptr : findFn prog (some (.ptr (.name "URN8141"))) "MarshalJSON" = none := by kernel_rfl
def unmarshal8141Fn : Fn := fn% fnOf (some (.ptr (.name "URN8141"))) "UnmarshalJSON"
theorem find_unmarshal8141 : findFn prog (some (.ptr (.name "URN8141"))) "UnmarshalJSON" = some unmarshal8141Fn := by kernel_rfl
theorem find_string8141 : findFn prog (some (.name "URN8141")) "String" = none := by kernel_rfl
theorem find_string8141_ptr : findFn prog (some (.ptr (.name "URN8141"))) "String" = none := by kernel_rfl
theorem fill_8141 (p : Option Nat) : fill prog "URN8141" [("", .ptr "URN" p)] = .ok (.struct "URN8141" [("URN", .ptr "URN" p)]) := by kernel_rfl

theorem sprintf_s2 (s t : Bytes) : sprintf (bytesOf [117, 114, 110, 58, 105, 101, 116, 102, 58, 112, 97, 114, 97, 109, 115, 58, 115, 99, 105, 109, 58, 37,
                  115, 58, 37, 115]) [.str s, .str t] = some (lit "urn:ietf:params:scim:" ++ (s ++ (lit ":" ++ (t ++ [])))) := by kernel_rfl
theorem sprintf_s1 (s : Bytes) : sprintf (bytesOf [58, 37, 115]) [.str s] = some (lit ":" ++ (s ++ [])) := by kernel_rfl

section
variable {X : Ext} {n : Nat} {h : Heap} {a : Nat} {b : Buf} {d : Bytes}

theorem typeString_call {t : Int} : callFn prog (callN prog X (n + 1)) typeStringFn (some (.int "Type" t)) [] false h =
    .ok ([.str (SchemaType.toStr t)], h) := by
  have l1 : bytesOf [115, 99, 104, 101, 109, 97, 115] = lit "schemas" := by decide
  have l2 : bytesOf [97, 112, 105] = lit "api" := by decide
  have l3 : bytesOf [112, 97, 114, 97, 109] = lit "param" := by decide
  have l4 : bytesOf [] = [] := rfl
  have hf : callFn prog (callN prog X (n + 1)) typeStringFn (some (.int "Type" t)) [] false h =
      callN prog X (n + 1) [.name "string"] [("t", .int "Type" t)] typeStringFn.body h := by
    simp [typeStringFn, callFn, bindParams]
  have e1 : execs prog X (callN prog X n) n typeStringFn.body ⟨[("t", .int "Type" t)], h⟩ =
      .ok (.ret [.str (SchemaType.toStr t)], ⟨[("t", .int "Type" t)], h⟩) := by
    by_cases h1 : t = 1
    · simp [typeStringFn, execs, exec, execCases, evals, eval, one, lookup, get, c_Schemas, eqVal, common, h1, inScope, jumps, entry, l1,
        SchemaType.toStr, SchemaType.Schemas]
    · have h1' : (t == 1) = false := by simpa using h1
      by_cases h2 : t = 2
      · simp [typeStringFn, execs, exec, execCases, evals, eval, one, lookup, get, c_Schemas, c_API, eqVal, common, h2, inScope, jumps, entry, l2,
          SchemaType.toStr, SchemaType.Schemas, SchemaType.API]
      · have h2' : (t == 2) = false := by simpa using h2
        by_cases h3 : t = 3
        · simp [typeStringFn, execs, exec, execCases, evals, eval, one, lookup, get, c_Schemas, c_API, c_Param, eqVal, common, h3, inScope, jumps, entry, l3,
            SchemaType.toStr, SchemaType.Schemas, SchemaType.API, SchemaType.Param]
        · have h3' : (t == 3) = false := by simpa using h3
          simp [typeStringFn, execs, exec, execCases, execDefault, evals, eval, one, lookup, get, c_Schemas, c_API, c_Param, eqVal, common, h1, h2, h3, h1', h2', h3',
            inScope, jumps, entry, l4, SchemaType.toStr, SchemaType.Schemas, SchemaType.API, SchemaType.Param]
  rw [hf, callN_ret e1 rfl]
  simp [zero_string, coerce]

theorem eval_sel_method {P : Prog} {call : Call} {e : Expr} {g : String} {args : Exprs} {f : String} {s' : Bool} {st : State} :
    eval P X call (.call (.sel (.sel e g) f) args s') st = ((eval P X call (.sel e g) st) >>= fun a =>
      one a.1 >>= fun v => method P a.2.heap v f >>= fun y =>
      (evals P X call args ⟨a.2.env, y.2.2⟩) >>= fun x =>
      (callFn P call y.1 (some y.2.1) x.1 s' x.2.heap) >>= fun y => .ok (y.1, { x.2 with heap := y.2 })) := by
  rw [eval.eq_def]
  rfl

theorem scimString_call {s : SCIM} (ha : h[a]? = some (.obj (scimVal s))) :
    callFn prog (callN prog X (n + 2)) scimStringFn (some (.ptr "SCIM" (some a))) [] false h = .ok ([.str s.string], h) := by
  have hf : callFn prog (callN prog X (n + 2)) scimStringFn (some (.ptr "SCIM" (some a))) [] false h =
      callN prog X (n + 2) [.name "string"] [("s", .ptr "SCIM" (some a))] scimStringFn.body h := by
    simp [scimStringFn, callFn, bindParams]
  have e1 : execs prog X (callN prog X (n + 1)) (n + 1) scimStringFn.body ⟨[("s", .ptr "SCIM" (some a))], h⟩ =
      .ok (.ret [.str s.string], ⟨[("ret", .str s.string), ("s", .ptr "SCIM" (some a))], h⟩) := by
    have ht := typeString_call (X := X) (n := n) (h := h) (t := s.Typ)
    have l4 : bytesOf [] = [] := rfl
    cases ho : s.Other with
    | nil =>
        simp [scimStringFn, execs, exec, evals, eval_ext, eval_sel_method, eval, one, lookup, get, isExt, field, loadObj, ha, scimVal, method, find_typeString, ht,
          extCall, sprintf_s2, coerceDefault, coerce, binVal, eqVal, ho, l4, inScope, jumps, entry, SCIM.string]
    | cons x xs =>
        simp [scimStringFn, execs, exec, evals, eval_ext, eval_sel_method, eval, one, lookup, get, isExt, field, loadObj, ha, scimVal, method, find_typeString, ht,
          extCall, sprintf_s2, coerceDefault, coerce, binVal, eqVal, ho, l4, inScope, jumps, entry, SCIM.string, store, set, sprintf_s1]
  rw [hf, callN_ret e1 rfl]
  simp [zero_string, coerce]

theorem scimMarshal_call {s : SCIM} :
    callFn prog (callN prog X (n + 3)) scimMarshalFn (some (scimVal s)) [] false h =
      .ok ([.bytes (h.length + 1) 0 (s.marshalJSON X.json).length (s.marshalJSON X.json).length, .nil], h ++ [.obj (scimVal s), .arr (s.marshalJSON X.json)]) := by
  have e := scimString_call (X := X) (n := n) (h := h ++ [.obj (scimVal s)]) (a := h.length) (s := s) (by simp)
  have hm : method prog h (scimVal s) "String" = .ok (scimStringFn, .ptr "SCIM" (some h.length), h ++ [.obj (scimVal s)]) := by
    simp [method, scimVal, find_scimString, find_scimString_val]
  have e1 : execs prog X (callN prog X (n + 2)) (n + 2) scimMarshalFn.body ⟨[("s", scimVal s)], h⟩ =
      .ok (.ret [.bytes (h.length + 1) 0 (s.marshalJSON X.json).length (s.marshalJSON X.json).length, .nil],
        ⟨[("s", scimVal s)], h ++ [.obj (scimVal s), .arr (s.marshalJSON X.json)]⟩) := by
    simp [scimMarshalFn, execs, exec, evals, eval_ext, eval_method, get, isExt, hm, e, extCall, newBytes, SCIM.marshalJSON]
  have hf : callFn prog (callN prog X (n + 3)) scimMarshalFn (some (scimVal s)) [] false h =
      callN prog X (n + 3) [.slice (.name "byte"), .name "error"] [("s", scimVal s)] scimMarshalFn.body h := by
    simp [scimMarshalFn, callFn, bindParams]
  rw [hf, callN_ret e1 rfl]
  simp [zero_bytes, zero_error, coerce]

/-- A `URN8141` with this pointer. -/
def val8141 (p : Option Nat) : Val := .struct "URN8141" [("URN", .ptr "URN" p)]

theorem marshal8141_cell {a : Nat} {sp : Option Nat} {tl : Val} {u : URN} (hv : h[a]? = some (.obj (urnValW sp tl u))) :
    callFn prog (callN prog X (n + 2)) marshal8141Fn (some (val8141 (some a))) [] false h =
      .ok ([.bytes h.length 0 (X.json.marshal u.string).length (X.json.marshal u.string).length, .nil], h ++ [.arr (X.json.marshal u.string)]) := by
  have e := string_cell (X := X) (n := n) hv
  have hm : method prog h (val8141 (some a)) "String" = .ok (stringFn, .ptr "URN" (some a), h) := by
    simp [method, val8141, find_string, find_string8141, find_string8141_ptr]
  have e1 : execs prog X (callN prog X (n + 1)) (n + 1) marshal8141Fn.body ⟨[("u", val8141 (some a))], h⟩ =
      .ok (.ret [.bytes h.length 0 (X.json.marshal u.string).length (X.json.marshal u.string).length, .nil],
        ⟨[("u", val8141 (some a))], h ++ [.arr (X.json.marshal u.string)]⟩) := by
    simp [marshal8141Fn, execs, exec, evals, eval_ext, eval_method, get, isExt, hm, e, extCall, newBytes]
  have hf : callFn prog (callN prog X (n + 2)) marshal8141Fn (some (val8141 (some a))) [] false h =
      callN prog X (n + 2) [.slice (.name "byte"), .name "error"] [("u", val8141 (some a))] marshal8141Fn.body h := by
    simp [marshal8141Fn, callFn, bindParams]
  rw [hf, callN_ret e1 rfl]
  simp [zero_bytes, zero_error, coerce]

theorem marshal8141_call {p : Option Nat} {u : URN8141} {t : Bytes} (r : UrnPtr h p u.urn) (ht : u.marshalJSON X.json = .ok t) :
    callFn prog (callN prog X (n + 2)) marshal8141Fn (some (val8141 p)) [] false h =
      .ok ([.bytes h.length 0 t.length t.length, .nil], h ++ [.arr t]) := by
  obtain ⟨o⟩ := u
  cases o with
  | none => cases ht
  | some u =>
  cases ht
  obtain ⟨a, v, rfl, hv, sp, tl, rfl, -, -⟩ := r
  exact marshal8141_cell hv

/-- With a nil pointer inside, both panic. -/
theorem marshal8141_nil : callFn prog (callN prog X (n + 2)) marshal8141Fn (some (val8141 none)) [] false h = .panic .nilDeref := by
  have hm : method prog h (val8141 none) "String" = .ok (stringFn, .ptr "URN" none, h) := by
    simp [method, val8141, find_string, find_string8141, find_string8141_ptr]
  have e : callFn prog (callN prog X (n + 1)) stringFn (some (.ptr "URN" none)) [] false h = .panic .nilDeref := by
    simp [stringFn, callFn, bindParams, callN, execs, exec, evals, eval, one, lookup, get, field, binVal, eqVal, loadObj, zero_string, inScope, jumps]
  have hf : callFn prog (callN prog X (n + 2)) marshal8141Fn (some (val8141 none)) [] false h =
      callN prog X (n + 2) [.slice (.name "byte"), .name "error"] [("u", val8141 none)] marshal8141Fn.body h := by
    simp [marshal8141Fn, callFn, bindParams]
  have e1 : execs prog X (callN prog X (n + 1)) (n + 1) marshal8141Fn.body ⟨[("u", val8141 none)], h⟩ = .panic .nilDeref := by
    simp [marshal8141Fn, execs, exec, evals, eval_ext, eval_method, get, isExt, hm, e]
  rw [hf, callN, e1]
  rfl


/-- `WithParsingMode(x)` for a constant. -/
theorem evals_mode {env : Env} {c : String} {x : Int} (hw : get "WithParsingMode" env = none) (hc : get c env = none)
    (hx : get c prog.consts = some (.int "ParsingMode" x)) (h : Heap) :
    evals prog X (callN prog X (n + 1)) (.cons (.call (.id "WithParsingMode") (.cons (.id c) .nil) false) .nil) ⟨env, h⟩ =
      .ok ([x].map optVal, ⟨env, h⟩) := by
  simp [evals, eval, lookup, hc, hx, callName, hw, find_option, option_call]

def tail8141 : Stmts :=
  .cons (.if_ (.cons (.define ["value", "ok"] (.cons (.call (.id "Parse") (.cons (.conv (.slice (.name "byte")) (.id "str"))
        (.cons (.call (.id "WithParsingMode") (.cons (.id "RFC8141Only") .nil) false) .nil)) false) .nil)) .nil)
      (.un .not (.id "ok"))
      (.cons (.ret (.cons (.call (.sel (.id "fmt") "Errorf") (.cons (.id "errInvalidURN8141") (.cons (.id "str") .nil)) false) .nil)) .nil)
      (.cons (.assign (.cons (.un .deref (.id "u")) .nil) (.cons (.lit (.name "URN8141") (.cons "" (.id "value") .nil)) .nil)) .nil))
    (.cons (.ret (.cons (.id "nil") .nil)) .nil)

theorem unmarshal8141_body : unmarshal8141Fn.body = decodeStmts tail8141 := rfl

/-- A pointer to a URN stays one if the memory is not changed below its end. -/
theorem UrnPtr.keep' {h h' : Heap} {p : Option Nat} {u : Option URN} (r : UrnPtr h p u) (hk : ∀ c, c < h.length → h'[c]? = h[c]?) :
    UrnPtr h' p u := by
  cases u with
  | none => exact r
  | some u =>
      have ⟨a, v, hp, _⟩ := r
      subst hp
      exact r.keep hk

/-- A pointer to a `URN8141` in memory. -/
def Ptr8141 (h : Heap) (a : Nat) (u : URN8141) : Prop := ∃ p, h[a]? = some (.obj (val8141 p)) ∧ UrnPtr h p u.urn

/-- `UnmarshalJSON` of `URN8141`: after an error nothing has changed, otherwise there is a pointer to a new URN. -/
theorem unmarshal8141_new {u u' : URN8141} {e : Option JErr} {p0 : Option Nat} (hp0 : h[a]? = some (.obj (val8141 p0))) (hb : b.has h d)
    (hfj : X.FitsJson d) (hr : u.unmarshalJSON X.json d = .ok (u', e)) : ∃ N, ∀ n, N ≤ n →
    ∃ h', callFn prog (callN prog X n) unmarshal8141Fn (some (.ptr "URN8141" (some a))) [b.val d.length] false h = .ok ([jerrVal X d e], h') ∧
      (∀ c, c < h.length → c ≠ a → h'[c]? = h[c]?) ∧
      match e with
      | none => ∃ p, h'[a]? = some (.obj (val8141 p)) ∧ UrnNew h' (h.length + 1) p u'.urn
      | some _ => h'[a]? = h[a]? ∧ u' = u := by
  have hf : ∀ n, callFn prog (callN prog X n) unmarshal8141Fn (some (.ptr "URN8141" (some a))) [b.val d.length] false h =
      callN prog X n [.name "error"] [("u", .ptr "URN8141" (some a)), ("bytes", b.val d.length)] unmarshal8141Fn.body h := by
    intro n
    simp [unmarshal8141Fn, callFn, bindParams, zero_bytes, coerce]
  unfold URN8141.unmarshalJSON at hr
  have hal := (List.getElem?_eq_some_iff.1 hp0).1
  cases hj : X.json.unmarshal d with
  | none =>
      rw [hj] at hr
      cases hr
      refine ⟨1, fun n hn => ?_⟩
      obtain ⟨n, rfl⟩ : ∃ k, n = k + 1 := ⟨n - 1, by omega⟩
      refine ⟨h, ?_, fun _ _ _ => rfl, rfl, rfl⟩
      have e1 := decode_fail (X := X) (call := callN prog X n) (F := n) (r := "u") (v := .ptr "URN8141" (some a)) (rest := tail8141) (.inl rfl) hb hj
      rw [← unmarshal8141_body] at e1
      rw [hf, callN_ret e1 rfl]
      simp [zero_error, coerce]
  | some s =>
      rw [hj] at hr
      cases hp : parse s [withParsingMode RFC8141Only] with
      | panic p => simp [hp] at hr
      | diverge => simp [hp] at hr
      | ok q =>
      simp only [hp, Run.ok_bind] at hr
      refine ⟨9 * s.length + 77, fun n hn => ?_⟩
      obtain ⟨n, rfl⟩ : ∃ k, n = k + 2 := ⟨n - 2, by omega⟩
      obtain ⟨h', p, he, hu, hk⟩ := eval_parse (X := X) (n := n + 1) (h := h) (env := [("str", .str s), ("u", .ptr "URN8141" (some a)), ("bytes", b.val d.length)])
        (opts := (.cons (.call (.id "WithParsingMode") (.cons (.id "RFC8141Only") .nil) false) .nil)) [RFC8141Only] rfl rfl
        (fun h => evals_mode rfl rfl c_RFC8141Only h) (hfj s hj) hp (by omega)
      have hi : execs prog X (callN prog X (n + 1)) (n + 1) (.cons (.define ["value", "ok"] (.cons (.call (.id "Parse") (.cons (.conv (.slice (.name "byte")) (.id "str"))
          (.cons (.call (.id "WithParsingMode") (.cons (.id "RFC8141Only") .nil) false) .nil)) false) .nil)) .nil)
          ⟨[("str", .str s), ("u", .ptr "URN8141" (some a)), ("bytes", b.val d.length)], h⟩ =
          .ok (.next, ⟨[("value", .ptr "URN" p), ("ok", .bool q.ok), ("str", .str s), ("u", .ptr "URN8141" (some a)), ("bytes", b.val d.length)], h'⟩) := by
        simp [execs, exec, evals, he, coerceDefault, coerce]
      have hc : eval prog X (callN prog X (n + 1)) (.un .not (.id "ok")) ⟨[("value", .ptr "URN" p), ("ok", .bool q.ok), ("str", .str s), ("u", .ptr "URN8141" (some a)), ("bytes", b.val d.length)], h'⟩ =
          .ok ([.bool (!q.ok)], ⟨[("value", .ptr "URN" p), ("ok", .bool q.ok), ("str", .str s), ("u", .ptr "URN8141" (some a)), ("bytes", b.val d.length)], h'⟩) := by
        simp [eval, lookup, get]
      cases hok : q.ok with
      | false =>
          rw [hok] at hi hc
          simp only [hok, if_true] at hr
          cases hr
          have hret : execs prog X (callN prog X (n + 1)) (n + 1) (.cons (.ret (.cons (.call (.sel (.id "fmt") "Errorf") (.cons (.id "errInvalidURN8141") (.cons (.id "str") .nil)) false) .nil)) .nil)
              ⟨[("value", .ptr "URN" p), ("ok", .bool false), ("str", .str s), ("u", .ptr "URN8141" (some a)), ("bytes", b.val d.length)], h'⟩ =
              .ok (.ret [jerrVal X d (some (.invalidURN8141 s))], ⟨[("value", .ptr "URN" p), ("ok", .bool false), ("str", .str s), ("u", .ptr "URN8141" (some a)), ("bytes", b.val d.length)], h'⟩) := by
            simp [execs, exec, evals, eval_ext, get, isExt, eval, lookup, c_errInvalidURN8141, extCall, sprintf_8141, jerrVal]
          have hif := exec_if_init (b := (.cons (.assign (.cons (.un .deref (.id "u")) .nil) (.cons (.lit (.name "URN8141") (.cons "" (.id "value") .nil)) .nil)) .nil)) hi hc rfl rfl hret
          have e1 : execs prog X (callN prog X (n + 1)) (n + 1) unmarshal8141Fn.body ⟨[("u", .ptr "URN8141" (some a)), ("bytes", b.val d.length)], h⟩ =
              .ok (.ret [jerrVal X d (some (.invalidURN8141 s))], ⟨[("str", .str s), ("u", .ptr "URN8141" (some a)), ("bytes", b.val d.length)], h'⟩) := by
            rw [unmarshal8141_body, decode_ok (.inl rfl) hb hj, tail8141, execs, hif]
            rfl
          refine ⟨h', ?_, fun c hc _ => hk c hc, hk _ hal, rfl⟩
          rw [hf, callN_ret e1 rfl]
          simp [zero_error, coerce]
      | true =>
          rw [hok] at hi hc
          simp only [hok, Bool.true_eq_false, if_false] at hr
          cases hr
          have hw : h'[a]? = some (.obj (val8141 p0)) := by rw [hk _ hal]; exact hp0
          have hal' := (List.getElem?_eq_some_iff.1 hw).1
          have hset : execs prog X (callN prog X (n + 1)) (n + 1) (.cons (.assign (.cons (.un .deref (.id "u")) .nil) (.cons (.lit (.name "URN8141") (.cons "" (.id "value") .nil)) .nil)) .nil)
              ⟨[("value", .ptr "URN" p), ("ok", .bool true), ("str", .str s), ("u", .ptr "URN8141" (some a)), ("bytes", b.val d.length)], h'⟩ =
              .ok (.next, ⟨[("value", .ptr "URN" p), ("ok", .bool true), ("str", .str s), ("u", .ptr "URN8141" (some a)), ("bytes", b.val d.length)],
                h'.set a (.obj (val8141 p))⟩) := by
            simp [execs, exec, evals, eval, evalElems, fill_8141, lookup, get, loadObj, hw, one, store, setDeref, val8141]
          have hif := exec_if_init (a := (.cons (.ret (.cons (.call (.sel (.id "fmt") "Errorf") (.cons (.id "errInvalidURN8141") (.cons (.id "str") .nil)) false) .nil)) .nil)) hi hc rfl rfl hset
          have e1 : execs prog X (callN prog X (n + 1)) (n + 1) unmarshal8141Fn.body ⟨[("u", .ptr "URN8141" (some a)), ("bytes", b.val d.length)], h⟩ =
              .ok (.ret [.nil], ⟨[("str", .str s), ("u", .ptr "URN8141" (some a)), ("bytes", b.val d.length)], h'.set a (.obj (val8141 p))⟩) := by
            rw [unmarshal8141_body, decode_ok (.inl rfl) hb hj, tail8141, execs, hif]
            simp [inScope, execs, exec, evals, eval, lookup, get, c_nil]
          refine ⟨h'.set a (.obj (val8141 p)), ?_, ?_, p, List.getElem?_set_self hal', ?_⟩
          · rw [hf, callN_ret e1 rfl]
            simp [zero_error, coerce, jerrVal]
          · intro k h1 h2
            rw [List.getElem?_set_ne (Ne.symm h2), hk k h1]
          · cases hq : q.urn with
            | none => rw [hq] at hu; exact hu
            | some v =>
                rw [hq] at hu
                obtain ⟨c, rfl, hlo, sp, hv, hsp⟩ := hu
                refine ⟨c, rfl, hlo, sp, by rw [List.getElem?_set_ne (by omega)]; exact hv, ?_⟩
                split
                · rename_i hs; rw [hs] at hsp; exact hsp
                · rename_i hs
                  rw [hs] at hsp
                  obtain ⟨k, hk1, hk2, hk3⟩ := hsp
                  exact ⟨k, hk1, by rw [List.getElem?_set_ne (by omega)]; exact hk2, hk3⟩

theorem unmarshal8141_call {u u' : URN8141} {e : Option JErr} (ha : Ptr8141 h a u) (hb : b.has h d)
    (hfj : X.FitsJson d) (hr : u.unmarshalJSON X.json d = .ok (u', e)) : ∃ N, ∀ n, N ≤ n →
    ∃ h', callFn prog (callN prog X n) unmarshal8141Fn (some (.ptr "URN8141" (some a))) [b.val d.length] false h = .ok ([jerrVal X d e], h') ∧
      Ptr8141 h' a u' ∧ ∀ c, c < h.length → c ≠ a → h'[c]? = h[c]? := by
  obtain ⟨p0, hp0, hu0⟩ := ha
  obtain ⟨N, hN⟩ := unmarshal8141_new (X := X) hp0 hb hfj hr
  refine ⟨N, fun n hn => ?_⟩
  obtain ⟨h', h1, h2, h3⟩ := hN n hn
  refine ⟨h', h1, ?_, h2⟩
  cases e with
  | none =>
      obtain ⟨p, h3, h4⟩ := h3
      exact ⟨p, h3, h4.ptr⟩
  | some e =>
      obtain ⟨h3, rfl⟩ := h3
      refine ⟨p0, h3.trans hp0, hu0.keep' fun c hc => ?_⟩
      by_cases hca : c = a
      · rw [hca, h3]
      · exact h2 c hc hca

def tailScim : Stmts :=
  .cons (.define ["value", "ok"] (.cons (.call (.id "Parse") (.cons (.conv (.slice (.name "byte")) (.id "str"))
        (.cons (.call (.id "WithParsingMode") (.cons (.id "RFC7643Only") .nil) false) .nil)) false) .nil))
    (.cons (.if_ .nil (.un .not (.id "ok"))
      (.cons (.ret (.cons (.call (.sel (.id "fmt") "Errorf") (.cons (.id "errInvalidSCIMURN") (.cons (.id "str") .nil)) false) .nil)) .nil) .nil)
    (.cons (.if_ .nil (.bin .ne (.call (.sel (.id "value") "RFC") .nil false) (.id "RFC7643"))
      (.cons (.ret (.cons (.call (.sel (.id "fmt") "Errorf") (.cons (.id "errInvalidSCIMURN") (.cons (.id "str") .nil)) false) .nil)) .nil) .nil)
    (.cons (.assign (.cons (.un .deref (.id "s")) .nil) (.cons (.un .deref (.call (.sel (.id "value") "SCIM") .nil false)) .nil))
    (.cons (.ret (.cons (.id "nil") .nil)) .nil))))

theorem scimUnmarshal_body : scimUnmarshalFn.body = decodeStmts tailScim := rfl

/-- `SCIM.UnmarshalJSON` -/
theorem scimUnmarshal_gen {s s' : SCIM} {e : Option JErr} {a : Option Nat} (hb : b.has h d)
    (hfj : X.FitsJson d) (hr : s.unmarshalJSON X.json d = .ok (s', e)) : ∃ N, ∀ n, N ≤ n →
    ∃ h', (∀ c, c < h.length → h'[c]? = h[c]?) ∧
      callFn prog (callN prog X n) scimUnmarshalFn (some (.ptr "SCIM" a)) [b.val d.length] false h =
        match e with
        | none => setDeref h' (.ptr "SCIM" a) (scimVal s') >>= fun h'' => .ok ([.nil], h'')
        | some e => .ok ([jerrVal X d (some e)], h') := by
  have hf : ∀ n, callFn prog (callN prog X n) scimUnmarshalFn (some (.ptr "SCIM" a)) [b.val d.length] false h =
      callN prog X n [.name "error"] [("s", .ptr "SCIM" a), ("bytes", b.val d.length)] scimUnmarshalFn.body h := by
    intro n
    simp [scimUnmarshalFn, callFn, bindParams, zero_bytes, coerce]
  unfold SCIM.unmarshalJSON at hr
  cases hj : X.json.unmarshal d with
  | none =>
      rw [hj] at hr
      cases hr
      refine ⟨1, fun n hn => ?_⟩
      obtain ⟨n, rfl⟩ : ∃ k, n = k + 1 := ⟨n - 1, by omega⟩
      refine ⟨h, fun _ _ => rfl, ?_⟩
      have e1 := decode_fail (X := X) (call := callN prog X n) (F := n) (r := "s") (v := .ptr "SCIM" a) (rest := tailScim) (.inr rfl) hb hj
      rw [← scimUnmarshal_body] at e1
      rw [hf, callN_ret e1 rfl]
      simp [zero_error, coerce]
  | some t =>
      rw [hj] at hr
      cases hp : parse t [withParsingMode RFC7643Only] with
      | panic p => simp [hp] at hr
      | diverge => simp [hp] at hr
      | ok q =>
      simp only [hp, Run.ok_bind] at hr
      refine ⟨9 * t.length + 77, fun n hn => ?_⟩
      obtain ⟨n, rfl⟩ : ∃ k, n = k + 2 := ⟨n - 2, by omega⟩
      obtain ⟨h', p, he, hu, hk⟩ := eval_parse (X := X) (n := n + 1) (h := h) (env := [("str", .str t), ("s", .ptr "SCIM" a), ("bytes", b.val d.length)])
        (opts := (.cons (.call (.id "WithParsingMode") (.cons (.id "RFC7643Only") .nil) false) .nil)) [RFC7643Only] rfl rfl
        (fun h => evals_mode rfl rfl c_RFC7643Only h) (hfj t hj) hp (by omega)
      have hi : exec prog X (callN prog X (n + 1)) (n + 1) (.define ["value", "ok"] (.cons (.call (.id "Parse") (.cons (.conv (.slice (.name "byte")) (.id "str"))
          (.cons (.call (.id "WithParsingMode") (.cons (.id "RFC7643Only") .nil) false) .nil)) false) .nil))
          ⟨[("str", .str t), ("s", .ptr "SCIM" a), ("bytes", b.val d.length)], h⟩ =
          .ok (.next, ⟨[("value", .ptr "URN" p), ("ok", .bool q.ok), ("str", .str t), ("s", .ptr "SCIM" a), ("bytes", b.val d.length)], h'⟩) := by
        simp [exec, evals, he, coerceDefault, coerce]
      have hc : eval prog X (callN prog X (n + 1)) (.un .not (.id "ok")) ⟨[("value", .ptr "URN" p), ("ok", .bool q.ok), ("str", .str t), ("s", .ptr "SCIM" a), ("bytes", b.val d.length)], h'⟩ =
          .ok ([.bool (!q.ok)], ⟨[("value", .ptr "URN" p), ("ok", .bool q.ok), ("str", .str t), ("s", .ptr "SCIM" a), ("bytes", b.val d.length)], h'⟩) := by
        simp [eval, lookup, get]
      have hret : ∀ ok : Bool, execs prog X (callN prog X (n + 1)) (n + 1) (.cons (.ret (.cons (.call (.sel (.id "fmt") "Errorf") (.cons (.id "errInvalidSCIMURN") (.cons (.id "str") .nil)) false) .nil)) .nil)
          ⟨[("value", .ptr "URN" p), ("ok", .bool ok), ("str", .str t), ("s", .ptr "SCIM" a), ("bytes", b.val d.length)], h'⟩ =
          .ok (.ret [jerrVal X d (some (.invalidSCIMURN t))], ⟨[("value", .ptr "URN" p), ("ok", .bool ok), ("str", .str t), ("s", .ptr "SCIM" a), ("bytes", b.val d.length)], h'⟩) := by
        intro ok
        simp [execs, exec, evals, eval_ext, get, isExt, eval, lookup, c_errInvalidSCIMURN, extCall, sprintf_scim, jerrVal]
      cases hok : q.ok with
      | false =>
          rw [hok] at hi hc
          simp only [hok, if_true] at hr
          cases hr
          have hif := exec_if_init (b := .nil) (execs_nil _) hc rfl rfl (hret false)
          have e1 : execs prog X (callN prog X (n + 1)) (n + 1) scimUnmarshalFn.body ⟨[("s", .ptr "SCIM" a), ("bytes", b.val d.length)], h⟩ =
              .ok (.ret [jerrVal X d (some (.invalidSCIMURN t))], ⟨[("value", .ptr "URN" p), ("ok", .bool false), ("str", .str t), ("s", .ptr "SCIM" a), ("bytes", b.val d.length)], h'⟩) := by
            rw [scimUnmarshal_body, decode_ok (.inr rfl) hb hj, tailScim, execs_next hi, execs, hif]
            rfl
          refine ⟨h', hk, ?_⟩
          rw [hf, callN_ret e1 rfl]
          simp [zero_error, coerce]
      | true =>
          rw [hok] at hi hc
          simp only [hok, Bool.true_eq_false, if_false] at hr
          cases hq : q.urn with
          | none => rw [hq] at hr; cases hr
          | some v =>
          rw [hq] at hr hu
          have hup := hu.ptr
          obtain ⟨c, rfl, hlo, -⟩ := hu
          have hif := exec_if_init (fuel := n + 1) (a := (.cons (.ret (.cons (.call (.sel (.id "fmt") "Errorf") (.cons (.id "errInvalidSCIMURN") (.cons (.id "str") .nil)) false) .nil)) .nil)) (b := .nil) (execs_nil _) hc rfl rfl (execs_nil _)
          have hrf := rfc_text (X := X) (n := n) hup
          simp only [runMethod, method, find_rfc, Res.ok_bind] at hrf
          have hc2 : eval prog X (callN prog X (n + 1)) (.bin .ne (.call (.sel (.id "value") "RFC") .nil false) (.id "RFC7643")) ⟨[("value", .ptr "URN" (some c)), ("ok", .bool true), ("str", .str t), ("s", .ptr "SCIM" a), ("bytes", b.val d.length)], h'⟩ =
              .ok ([.bool (!(v.rfc == .RFC7643))], ⟨[("value", .ptr "URN" (some c)), ("ok", .bool true), ("str", .str t), ("s", .ptr "SCIM" a), ("bytes", b.val d.length)], h'⟩) :=
            eval_bin (op := .ne) ⟨by decide, by decide⟩ (x := .int "Kind" (kindNum v.rfc)) (y := .int "Kind" 2)
              (by simp [eval_method, get, method, find_rfc, evals, hrf]) (by simp [eval, lookup, get, c_RFC7643])
              (by simp [binVal, eqVal, common, kindNum_eq])
          by_cases hkd : v.rfc = .RFC7643
          · rw [hkd] at hc2
            obtain ⟨sp, hsc, hsa⟩ := scim_text (X := X) (n := n) hup
            simp only [runMethod, method, find_scim, Res.ok_bind] at hsc
            simp only [ne_eq, hkd, not_true_eq_false, if_false] at hr
            cases hx : v.getSCIM with
            | none => rw [hx] at hr; cases hr
            | some x =>
            rw [hx] at hr hsa
            cases hr
            obtain ⟨k, rfl, hsk⟩ := hsa
            have hif2 := exec_if_init (fuel := n + 1) (a := (.cons (.ret (.cons (.call (.sel (.id "fmt") "Errorf") (.cons (.id "errInvalidSCIMURN") (.cons (.id "str") .nil)) false) .nil)) .nil)) (b := .nil) (execs_nil _) hc2 rfl rfl (execs_nil _)
            refine ⟨h', hk, ?_⟩
            rw [hf]
            have hset : exec prog X (callN prog X (n + 1)) (n + 1) (.assign (.cons (.un .deref (.id "s")) .nil) (.cons (.un .deref (.call (.sel (.id "value") "SCIM") .nil false)) .nil))
                ⟨[("value", .ptr "URN" (some c)), ("ok", .bool true), ("str", .str t), ("s", .ptr "SCIM" a), ("bytes", b.val d.length)], h'⟩ =
                setDeref h' (.ptr "SCIM" a) (scimVal s') >>= fun h'' =>
                .ok (.next, ⟨[("value", .ptr "URN" (some c)), ("ok", .bool true), ("str", .str t), ("s", .ptr "SCIM" a), ("bytes", b.val d.length)], h''⟩) := by
              cases hs : setDeref h' (.ptr "SCIM" a) (scimVal s') <;>
                simp [exec, evals, eval, eval_method, method, find_scim, hsc, lookup, get, loadObj, hsk, one, store, hs]
            have e1 : execs prog X (callN prog X (n + 1)) (n + 1) scimUnmarshalFn.body ⟨[("s", .ptr "SCIM" a), ("bytes", b.val d.length)], h⟩ =
                setDeref h' (.ptr "SCIM" a) (scimVal s') >>= fun h'' =>
                .ok (.ret [.nil], ⟨[("value", .ptr "URN" (some c)), ("ok", .bool true), ("str", .str t), ("s", .ptr "SCIM" a), ("bytes", b.val d.length)], h''⟩) := by
              rw [scimUnmarshal_body, decode_ok (.inr rfl) hb hj, tailScim, execs_next hi, execs, hif]
              simp only [inScope, Res.ok_bind, Res.pure_eq, Nat.sub_self, List.drop_zero]
              rw [execs, hif2]
              simp only [inScope, Res.ok_bind, Res.pure_eq, Nat.sub_self, List.drop_zero]
              rw [execs, hset]
              cases setDeref h' (.ptr "SCIM" a) (scimVal s') with
              | ok h'' => simp [execs, exec, evals, eval, lookup, get, c_nil]
              | panic _ => rfl
              | stuck => rfl
              | more => rfl
            show callN _ _ _ _ _ _ _ = (setDeref h' (.ptr "SCIM" a) (scimVal s') >>= fun h'' => Res.ok ([Val.nil], h''))
            cases hs : setDeref h' (.ptr "SCIM" a) (scimVal s') with
            | ok h'' =>
                rw [hs] at e1
                rw [callN_ret e1 rfl]
                simp [zero_error, coerce]
            | panic _ => rw [hs] at e1; exact callN_panic e1
            | stuck => rw [hs] at e1; rw [callN, e1]; rfl
            | more => rw [hs] at e1; rw [callN, e1]; rfl
          · have hkd' : (v.rfc == .RFC7643) = false := by simpa using hkd
            rw [hkd'] at hc2
            simp only [ne_eq, hkd, not_false_eq_true, if_true] at hr
            cases hr
            have hif2 := exec_if_init (b := .nil) (execs_nil _) hc2 rfl rfl (hret true)
            have e1 : execs prog X (callN prog X (n + 1)) (n + 1) scimUnmarshalFn.body ⟨[("s", .ptr "SCIM" a), ("bytes", b.val d.length)], h⟩ =
                .ok (.ret [jerrVal X d (some (.invalidSCIMURN t))], ⟨[("value", .ptr "URN" (some c)), ("ok", .bool true), ("str", .str t), ("s", .ptr "SCIM" a), ("bytes", b.val d.length)], h'⟩) := by
              rw [scimUnmarshal_body, decode_ok (.inr rfl) hb hj, tailScim, execs_next hi, execs, hif]
              simp only [inScope, Res.ok_bind, Res.pure_eq, Nat.sub_self, List.drop_zero]
              rw [execs, hif2]
              rfl
            refine ⟨h', hk, ?_⟩
            rw [hf, callN_ret e1 rfl]
            simp [zero_error, coerce]

theorem scimUnmarshal_call {s s' : SCIM} {e : Option JErr} (ha : h[a]? = some (.obj (scimVal s))) (hb : b.has h d)
    (hfj : X.FitsJson d) (hr : s.unmarshalJSON X.json d = .ok (s', e)) : ∃ N, ∀ n, N ≤ n →
    ∃ h', callFn prog (callN prog X n) scimUnmarshalFn (some (.ptr "SCIM" (some a))) [b.val d.length] false h = .ok ([jerrVal X d e], h') ∧
      h'[a]? = some (.obj (scimVal s')) ∧ ∀ c, c < h.length → c ≠ a → h'[c]? = h[c]? := by
  have hal := (List.getElem?_eq_some_iff.1 ha).1
  obtain ⟨N, hN⟩ := scimUnmarshal_gen (X := X) (a := some a) hb hfj hr
  refine ⟨N, fun n hn => ?_⟩
  obtain ⟨h', hk, h1⟩ := hN n hn
  have hw : h'[a]? = some (.obj (scimVal s)) := by rw [hk _ hal]; exact ha
  cases e with
  | none =>
      simp only [setDeref, loadObj, hw, Res.ok_bind, Res.pure_eq] at h1
      exact ⟨_, h1, List.getElem?_set_self (List.getElem?_eq_some_iff.1 hw).1,
        fun c hc hca => by rw [List.getElem?_set_ne (Ne.symm hca), hk c hc]⟩
  | some e =>
      refine ⟨h', h1, ?_, fun c hc _ => hk c hc⟩
      have : s' = s := by
        unfold SCIM.unmarshalJSON at hr
        split at hr
        · cases hr; rfl
        · rename_i t _
          cases hp : parse t [withParsingMode RFC7643Only] with
          | panic p => simp [hp] at hr
          | diverge => simp [hp] at hr
          | ok q =>
              simp only [hp, Run.ok_bind] at hr
              split at hr
              · cases hr; rfl
              · split at hr
                · cases hr
                · split at hr
                  · cases hr; rfl
                  · split at hr <;> cases hr
      rw [this]
      exact hw
end
end Urn.GoLang
