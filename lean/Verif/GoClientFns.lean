import Verif.GoClient
import Verif.GoSpecAux
/-!
# The functions of the client program
-/
set_option autoImplicit false
set_option linter.unusedSimpArgs false
set_option maxRecDepth 10000000
namespace Urn.GoLang

def clientC : List (List Nat) := codes% clientGo
def clientAst : List Decl := ast% clientC
theorem client_parse : parseFile clientGo = some clientAst :=
  parseFile_eq (c := clientC) (by kernel_rfl) (by decide +kernel) (by kernel_rfl)

/-- The client program. -/
def cprog : Prog := (addDecls {} clientAst).getD {}
theorem cprog_eq : addDecls {} clientAst = some cprog := by kernel_rfl

theorem isProgram_client : IsProgram [clientGo] cprog := by
  refine ⟨[clientAst], by simp only [List.mapM_cons, List.mapM_nil, client_parse]; rfl, ?_⟩
  rw [List.flatten_cons, List.flatten_nil, List.append_nil]
  exact cprog_eq

theorem client_eq {C : Prog} (h : IsProgram [clientGo] C) : C = cprog := by
  obtain ⟨ds, h1, h2⟩ := h
  obtain ⟨ds', h1', h2'⟩ := isProgram_client
  rw [h1] at h1'
  cases h1'
  rw [h2] at h2'
  cases h2'
  rfl

def cfn (f : String) : Fn := (findFn cprog none f).getD ⟨none, "", [], [], .nil⟩

section
variable {X : Ext} {n : Nat} {h : Heap} {a : Nat}

/-- The results of a function, with the types of the results. -/
def conv (rs : List Ty) (r : List Val × Heap) : Res (List Val × Heap) :=
  if rs.length = r.1.length then .ok ((rs.zip r.1).map fun (t, v) => coerce (zero prog 3 t) v, r.2) else .stuck

theorem callN_rets {rs : List Ty} {env : Env} {es : Exprs} :
    callN prog X (n + 1) rs env (.cons (.ret es) .nil) h = evals prog X (callN prog X n) es ⟨env, h⟩ >>= fun x => conv rs (x.1, x.2.heap) := by
  simp only [callN, execs, exec]
  cases he : evals prog X (callN prog X n) es ⟨env, h⟩ with
  | ok x => simp [jumps, conv]
  | panic p => cases n <;> rfl
  | stuck => cases n <;> rfl
  | more => cases n <;> rfl

/-- `return p.m(args)` -/
theorem ret_method {rs : List Ty} {env : Env} {p m : String} {args : Exprs} {v w : Val} {g : Fn} {h1 h2 : Heap} {as : List Val} (hp : get p env = some v)
    (hm : method prog h v m = .ok (g, w, h1)) (ha : evals prog X (callN prog X n) args ⟨env, h1⟩ = .ok (as, ⟨env, h2⟩)) :
    callN prog X (n + 1) rs env (.cons (.ret (.cons (.call (.sel (.id p) m) args false) .nil)) .nil) h =
      callFn prog (callN prog X n) g (some w) as false h2 >>= conv rs := by
  rw [callN_rets, evals, eval_method hp]
  simp only [hm, ha, Res.ok_bind]
  cases callFn prog (callN prog X n) g (some w) as false h2 with
  | ok x => simp [evals]
  | panic p => rfl
  | stuck => rfl
  | more => rfl

theorem ret_method0 {rs : List Ty} {env : Env} {p m : String} {v w : Val} {g : Fn} {h1 : Heap} (hp : get p env = some v)
    (hm : method prog h v m = .ok (g, w, h1)) :
    callN prog X (n + 1) rs env (.cons (.ret (.cons (.call (.sel (.id p) m) .nil false) .nil)) .nil) h =
      callFn prog (callN prog X n) g (some w) [] false h1 >>= conv rs :=
  ret_method hp hm (by simp [evals])

theorem cl_start {f : String} {g : Fn} {vs : List Val} {env : Env} (hg : findFn cprog none f = some g) (hr : g.recv = none)
    (he : bindParams prog false g.params vs = some env) : callClient prog cprog X n f vs h = callN prog X n g.results env g.body h := by
  simp only [callClient, hg, Res.some!_some, Res.ok_bind, callFn, he, hr, Res.pure_eq]

/-! ## Methods with a nil receiver -/

theorem rfc_nil : callFn prog (callN prog X (n + 1)) rfcFn (some (.ptr "URN" none)) [] false h = .panic .nilDeref := by
  simp [rfcFn, callFn, bindParams, callN, execs, exec, evals, eval, one, lookup, get, field, jumps]
theorem f_nil : callFn prog (callN prog X (n + 1)) fFn (some (.ptr "URN" none)) [] false h = .panic .nilDeref := by
  simp [fFn, callFn, bindParams, callN, execs, exec, evals, eval, one, lookup, get, field, jumps]
theorem q_nil : callFn prog (callN prog X (n + 1)) qFn (some (.ptr "URN" none)) [] false h = .panic .nilDeref := by
  simp [qFn, callFn, bindParams, callN, execs, exec, evals, eval, one, lookup, get, field, jumps]
theorem r_nil : callFn prog (callN prog X (n + 1)) rFn (some (.ptr "URN" none)) [] false h = .panic .nilDeref := by
  simp [rFn, callFn, bindParams, callN, execs, exec, evals, eval, one, lookup, get, field, jumps]
theorem isScim_nil : callFn prog (callN prog X (n + 1)) isScimFn (some (.ptr "URN" none)) [] false h = .panic .nilDeref := by
  simp [isScimFn, callFn, bindParams, callN, execs, exec, evals, eval, one, lookup, get, field, jumps]
theorem scim_nil : callFn prog (callN prog X (n + 1)) scimFn (some (.ptr "URN" none)) [] false h = .panic .nilDeref := by
  simp [scimFn, callFn, bindParams, callN, execs, exec, evals, eval, one, lookup, get, field, jumps, inScope]
theorem string_nil : callFn prog (callN prog X (n + 1)) stringFn (some (.ptr "URN" none)) [] false h = .panic .nilDeref := by
  simp [stringFn, callFn, bindParams, callN, execs, exec, evals, eval, one, lookup, get, field, binVal, eqVal, loadObj, zero_string, inScope, jumps]
theorem normalize_nil : callFn prog (callN prog X (n + 1)) normalizeFn (some (.ptr "URN" none)) [] false h = .panic .nilDeref := by
  simp [normalizeFn, callFn, bindParams, callN, execs, exec, evals, eval, eval_ext, evalElems, isExt, one, lookup, get, field, jumps]
theorem equal_nil {p : Nat} : callFn prog (callN prog X (n + 2)) equalFn (some (.ptr "URN" none)) [.ptr "URN" (some p)] false h = .panic .nilDeref := by
  have e := normalize_nil (X := X) (n := n) (h := h)
  have hf : callFn prog (callN prog X (n + 2)) equalFn (some (.ptr "URN" none)) [.ptr "URN" (some p)] false h =
      callN prog X (n + 2) [.name "bool"] [("u", .ptr "URN" none), ("x", .ptr "URN" (some p))] equalFn.body h := by
    simp [equalFn, callFn, bindParams, zero_urn, coerce]
  have e1 : execs prog X (callN prog X (n + 1)) (n + 1) equalFn.body ⟨[("u", .ptr "URN" none), ("x", .ptr "URN" (some p))], h⟩ = .panic .nilDeref := by
    simp [equalFn, execs, exec, evals, eval_method, eval, one, lookup, get, c_nil, binVal, eqVal, inScope, jumps, method, find_normalize, e]
  rw [hf]
  exact callN_panic e1
theorem equal_none {p : Option Nat} : callFn prog (callN prog X (n + 1)) equalFn (some (.ptr "URN" p)) [.ptr "URN" none] false h = .ok ([.bool false], h) := by
  simp [equalFn, callFn, bindParams, callN, execs, exec, evals, eval, one, lookup, get, zero_bool, zero_urn, coerce, jumps_ret,
        binVal, eqVal, inScope, entry, jumps, c_nil, c_false, URN.equal]
theorem scimString_nil : callFn prog (callN prog X (n + 1)) scimStringFn (some (.ptr "SCIM" none)) [] false h = .panic .nilDeref := by
  simp [scimStringFn, callFn, bindParams, callN, execs, exec, evals, eval_ext, eval_sel_method, eval, one, lookup, get, isExt, field, jumps]

/-! ## `return p.m()` -/

theorem cl_normalize {p : Option Nat} : callClient prog cprog X (n + 1) "normalize" [.ptr "URN" p] h =
    callFn prog (callN prog X n) normalizeFn (some (.ptr "URN" p)) [] false h >>= conv [.ptr (.name "URN")] :=
  (cl_start (g := fn% cfn "normalize") (env := [("p", .ptr "URN" p)]) (by kernel_rfl) rfl (by simp [bindParams, zero_urn, coerce])).trans
    (ret_method0 (v := .ptr "URN" p) (by simp [get]) (by simp [method, find_normalize]))

theorem cl_stringOf {p : Option Nat} : callClient prog cprog X (n + 1) "stringOf" [.ptr "URN" p] h =
    callFn prog (callN prog X n) stringFn (some (.ptr "URN" p)) [] false h >>= conv [.name "string"] :=
  (cl_start (g := fn% cfn "stringOf") (env := [("p", .ptr "URN" p)]) (by kernel_rfl) rfl (by simp [bindParams, zero_urn, coerce])).trans
    (ret_method0 (v := .ptr "URN" p) (by simp [get]) (by simp [method, find_string]))

theorem cl_isSCIM {p : Option Nat} : callClient prog cprog X (n + 1) "isSCIM" [.ptr "URN" p] h =
    callFn prog (callN prog X n) isScimFn (some (.ptr "URN" p)) [] false h >>= conv [.name "bool"] :=
  (cl_start (g := fn% cfn "isSCIM") (env := [("p", .ptr "URN" p)]) (by kernel_rfl) rfl (by simp [bindParams, zero_urn, coerce])).trans
    (ret_method0 (v := .ptr "URN" p) (by simp [get]) (by simp [method, find_isScim]))

theorem cl_scimOf {p : Option Nat} : callClient prog cprog X (n + 1) "scimOf" [.ptr "URN" p] h =
    callFn prog (callN prog X n) scimFn (some (.ptr "URN" p)) [] false h >>= conv [.ptr (.name "SCIM")] :=
  (cl_start (g := fn% cfn "scimOf") (env := [("p", .ptr "URN" p)]) (by kernel_rfl) rfl (by simp [bindParams, zero_urn, coerce])).trans
    (ret_method0 (v := .ptr "URN" p) (by simp [get]) (by simp [method, find_scim]))

theorem cl_rfc {p : Option Nat} : callClient prog cprog X (n + 1) "rfc" [.ptr "URN" p] h =
    callFn prog (callN prog X n) rfcFn (some (.ptr "URN" p)) [] false h >>= conv [.name "Kind"] :=
  (cl_start (g := fn% cfn "rfc") (env := [("p", .ptr "URN" p)]) (by kernel_rfl) rfl (by simp [bindParams, zero_urn, coerce])).trans
    (ret_method0 (v := .ptr "URN" p) (by simp [get]) (by simp [method, find_rfc]))

theorem cl_rComponent {p : Option Nat} : callClient prog cprog X (n + 1) "rComponent" [.ptr "URN" p] h =
    callFn prog (callN prog X n) rFn (some (.ptr "URN" p)) [] false h >>= conv [.name "string"] :=
  (cl_start (g := fn% cfn "rComponent") (env := [("p", .ptr "URN" p)]) (by kernel_rfl) rfl (by simp [bindParams, zero_urn, coerce])).trans
    (ret_method0 (v := .ptr "URN" p) (by simp [get]) (by simp [method, find_r]))

theorem cl_qComponent {p : Option Nat} : callClient prog cprog X (n + 1) "qComponent" [.ptr "URN" p] h =
    callFn prog (callN prog X n) qFn (some (.ptr "URN" p)) [] false h >>= conv [.name "string"] :=
  (cl_start (g := fn% cfn "qComponent") (env := [("p", .ptr "URN" p)]) (by kernel_rfl) rfl (by simp [bindParams, zero_urn, coerce])).trans
    (ret_method0 (v := .ptr "URN" p) (by simp [get]) (by simp [method, find_q]))

theorem cl_fComponent {p : Option Nat} : callClient prog cprog X (n + 1) "fComponent" [.ptr "URN" p] h =
    callFn prog (callN prog X n) fFn (some (.ptr "URN" p)) [] false h >>= conv [.name "string"] :=
  (cl_start (g := fn% cfn "fComponent") (env := [("p", .ptr "URN" p)]) (by kernel_rfl) rfl (by simp [bindParams, zero_urn, coerce])).trans
    (ret_method0 (v := .ptr "URN" p) (by simp [get]) (by simp [method, find_f]))

theorem cl_scimString {p : Option Nat} : callClient prog cprog X (n + 1) "scimString" [.ptr "SCIM" p] h =
    callFn prog (callN prog X n) scimStringFn (some (.ptr "SCIM" p)) [] false h >>= conv [.name "string"] :=
  (cl_start (g := fn% cfn "scimString") (env := [("p", .ptr "SCIM" p)]) (by kernel_rfl) rfl (by simp [bindParams, zero_scim, coerce])).trans
    (ret_method0 (v := .ptr "SCIM" p) (by simp [get]) (by simp [method, find_scimString]))

theorem cl_equal {p q : Option Nat} : callClient prog cprog X (n + 1) "equal" [.ptr "URN" p, .ptr "URN" q] h =
    callFn prog (callN prog X n) equalFn (some (.ptr "URN" p)) [.ptr "URN" q] false h >>= conv [.name "bool"] :=
  (cl_start (g := fn% cfn "equal") (env := [("p", .ptr "URN" p), ("q", .ptr "URN" q)]) (by kernel_rfl) rfl (by simp [bindParams, zero_urn, coerce])).trans
    (ret_method (v := .ptr "URN" p) (by simp [get]) (by simp [method, find_equal]; rfl) (by simp [evals, eval, lookup, get]))

theorem cl_unmarshalJSON {p : Option Nat} {s : Bytes} : callClient prog cprog X (n + 1) "unmarshalJSON" [.ptr "URN" p, .str s] h =
    callFn prog (callN prog X n) unmarshalFn (some (.ptr "URN" p)) [(newBytes h s).1] false (newBytes h s).2 >>= conv [.name "error"] :=
  (cl_start (g := fn% cfn "unmarshalJSON") (env := [("p", .ptr "URN" p), ("s", .str s)]) (by kernel_rfl) rfl (by simp [bindParams, zero_urn, zero_string, coerce])).trans
    (ret_method (v := .ptr "URN" p) (by simp [get]) (by simp [method, find_unmarshal]; rfl) (by simp [evals, eval, lookup, get]))

theorem cl_scimUnmarshalJSON {p : Option Nat} {s : Bytes} : callClient prog cprog X (n + 1) "scimUnmarshalJSON" [.ptr "SCIM" p, .str s] h =
    callFn prog (callN prog X n) scimUnmarshalFn (some (.ptr "SCIM" p)) [(newBytes h s).1] false (newBytes h s).2 >>= conv [.name "error"] :=
  (cl_start (g := fn% cfn "scimUnmarshalJSON") (env := [("p", .ptr "SCIM" p), ("s", .str s)]) (by kernel_rfl) rfl (by simp [bindParams, zero_scim, zero_string, coerce])).trans
    (ret_method (v := .ptr "SCIM" p) (by simp [get]) (by simp [method, find_scimUnmarshal]; rfl) (by simp [evals, eval, lookup, get]))

/-! ## New structs -/

theorem fill_URN : fill prog "URN" [] = .ok (urnValW none .nil {}) := by kernel_rfl
theorem fill_SCIM : fill prog "SCIM" [] = .ok (scimVal {}) := by kernel_rfl

theorem cl_newURN : callClient prog cprog X (n + 1) "newURN" [] h = .ok ([.ptr "URN" (some h.length)], h ++ [.obj (urnValW none .nil {})]) := by
  refine (cl_start (g := fn% cfn "newURN") (env := []) (by kernel_rfl) rfl (by simp [bindParams])).trans ?_
  rw [callN_rets]
  simp [evals, eval, evalElems, fill_URN, conv, zero_urn, coerce]

theorem cl_newSCIM : callClient prog cprog X (n + 1) "newSCIM" [] h = .ok ([.ptr "SCIM" (some h.length)], h ++ [.obj (scimVal {})]) := by
  refine (cl_start (g := fn% cfn "newSCIM") (env := []) (by kernel_rfl) rfl (by simp [bindParams])).trans ?_
  rw [callN_rets]
  simp [evals, eval, evalElems, fill_SCIM, conv, zero_scim, coerce]

/-! ## Fields -/


theorem cl_getID {p : Option Nat} : callClient prog cprog X (n + 1) "getID" [.ptr "URN" p] h =
    field h (.ptr "URN" p) "ID" >>= fun v => conv [.name "string"] ([v], h) := by
  refine (cl_start (g := fn% cfn "getID") (env := [("p", .ptr "URN" p)]) (by kernel_rfl) rfl (by simp [bindParams, zero_urn, coerce])).trans ?_
  rw [callN_rets]
  simp only [evals, eval, lookup, get, if_true, Res.some!_some, Res.ok_bind, one, Res.pure_eq]
  cases field h (.ptr "URN" p) "ID" <;> simp

theorem cl_getSS {p : Option Nat} : callClient prog cprog X (n + 1) "getSS" [.ptr "URN" p] h =
    field h (.ptr "URN" p) "SS" >>= fun v => conv [.name "string"] ([v], h) := by
  refine (cl_start (g := fn% cfn "getSS") (env := [("p", .ptr "URN" p)]) (by kernel_rfl) rfl (by simp [bindParams, zero_urn, coerce])).trans ?_
  rw [callN_rets]
  simp only [evals, eval, lookup, get, if_true, Res.some!_some, Res.ok_bind, one, Res.pure_eq]
  cases field h (.ptr "URN" p) "SS" <;> simp

theorem cl_setID {p : Option Nat} {v : Bytes} : callClient prog cprog X (n + 1) "setID" [.ptr "URN" p, .str v] h =
    setField h (.ptr "URN" p) "ID" (.str v) >>= fun h' => .ok ([], h') := by
  refine (cl_start (g := fn% cfn "setID") (env := [("p", .ptr "URN" p), ("v", .str v)]) (by kernel_rfl) rfl (by simp [bindParams, zero_urn, zero_string, coerce])).trans ?_
  cases hs : setField h (.ptr "URN" p) "ID" (.str v) <;>
    simp [callN, execs, exec, evals, eval, lookup, get, one, store, hs, jumps]

theorem cl_setSS {p : Option Nat} {v : Bytes} : callClient prog cprog X (n + 1) "setSS" [.ptr "URN" p, .str v] h =
    setField h (.ptr "URN" p) "SS" (.str v) >>= fun h' => .ok ([], h') := by
  refine (cl_start (g := fn% cfn "setSS") (env := [("p", .ptr "URN" p), ("v", .str v)]) (by kernel_rfl) rfl (by simp [bindParams, zero_urn, zero_string, coerce])).trans ?_
  cases hs : setField h (.ptr "URN" p) "SS" (.str v) <;>
    simp [callN, execs, exec, evals, eval, lookup, get, one, store, hs, jumps]

theorem cl_setType {p : Option Nat} {v : Int} : callClient prog cprog X (n + 1) "setType" [.ptr "SCIM" p, .int "Type" v] h =
    setField h (.ptr "SCIM" p) "Type" (.int "Type" v) >>= fun h' => .ok ([], h') := by
  refine (cl_start (g := fn% cfn "setType") (env := [("p", .ptr "SCIM" p), ("v", .int "Type" v)]) (by kernel_rfl) rfl (by simp [bindParams, zero_scim, zero_type, coerce])).trans ?_
  cases hs : setField h (.ptr "SCIM" p) "Type" (.int "Type" v) <;>
    simp [callN, execs, exec, evals, eval, lookup, get, one, store, hs, jumps]

theorem cl_setName {p : Option Nat} {v : Bytes} : callClient prog cprog X (n + 1) "setName" [.ptr "SCIM" p, .str v] h =
    setField h (.ptr "SCIM" p) "Name" (.str v) >>= fun h' => .ok ([], h') := by
  refine (cl_start (g := fn% cfn "setName") (env := [("p", .ptr "SCIM" p), ("v", .str v)]) (by kernel_rfl) rfl (by simp [bindParams, zero_scim, zero_string, coerce])).trans ?_
  cases hs : setField h (.ptr "SCIM" p) "Name" (.str v) <;>
    simp [callN, execs, exec, evals, eval, lookup, get, one, store, hs, jumps]

theorem cl_setOther {p : Option Nat} {v : Bytes} : callClient prog cprog X (n + 1) "setOther" [.ptr "SCIM" p, .str v] h =
    setField h (.ptr "SCIM" p) "Other" (.str v) >>= fun h' => .ok ([], h') := by
  refine (cl_start (g := fn% cfn "setOther") (env := [("p", .ptr "SCIM" p), ("v", .str v)]) (by kernel_rfl) rfl (by simp [bindParams, zero_scim, zero_string, coerce])).trans ?_
  cases hs : setField h (.ptr "SCIM" p) "Other" (.str v) <;>
    simp [callN, execs, exec, evals, eval, lookup, get, one, store, hs, jumps]

theorem cl_copyURN {p q : Option Nat} : callClient prog cprog X (n + 1) "copyURN" [.ptr "URN" p, .ptr "URN" q] h =
    derefPtr h q >>= fun v => setDeref h (.ptr "URN" p) v >>= fun h' => .ok ([], h') := by
  refine (cl_start (g := fn% cfn "copyURN") (env := [("p", .ptr "URN" p), ("q", .ptr "URN" q)]) (by kernel_rfl) rfl (by simp [bindParams, zero_urn, coerce])).trans ?_
  cases q with
  | none => simp [callN, execs, exec, evals, eval, lookup, get, derefPtr, jumps]
  | some q =>
      cases hl : loadObj h q with
      | ok v => cases hs : setDeref h (.ptr "URN" p) v <;> simp [callN, execs, exec, evals, eval, lookup, get, one, store, derefPtr, hl, hs, jumps]
      | panic _ => simp [callN, execs, exec, evals, eval, lookup, get, derefPtr, hl, jumps]
      | stuck => simp [callN, execs, exec, evals, eval, lookup, get, derefPtr, hl, jumps]
      | more => simp [callN, execs, exec, evals, eval, lookup, get, derefPtr, hl, jumps]

theorem cl_copySCIM {p q : Option Nat} : callClient prog cprog X (n + 1) "copySCIM" [.ptr "SCIM" p, .ptr "SCIM" q] h =
    derefPtr h q >>= fun v => setDeref h (.ptr "SCIM" p) v >>= fun h' => .ok ([], h') := by
  refine (cl_start (g := fn% cfn "copySCIM") (env := [("p", .ptr "SCIM" p), ("q", .ptr "SCIM" q)]) (by kernel_rfl) rfl (by simp [bindParams, zero_scim, coerce])).trans ?_
  cases q with
  | none => simp [callN, execs, exec, evals, eval, lookup, get, derefPtr, jumps]
  | some q =>
      cases hl : loadObj h q with
      | ok v => cases hs : setDeref h (.ptr "SCIM" p) v <;> simp [callN, execs, exec, evals, eval, lookup, get, one, store, derefPtr, hl, hs, jumps]
      | panic _ => simp [callN, execs, exec, evals, eval, lookup, get, derefPtr, hl, jumps]
      | stuck => simp [callN, execs, exec, evals, eval, lookup, get, derefPtr, hl, jumps]
      | more => simp [callN, execs, exec, evals, eval, lookup, get, derefPtr, hl, jumps]

theorem cl_scimFields {s : SCIM} (ha : h[a]? = some (.obj (scimVal s))) : callClient prog cprog X (n + 1) "scimFields" [.ptr "SCIM" (some a)] h =
    .ok ([.int "Type" s.Typ, .str s.Name, .str s.Other], h) := by
  refine (cl_start (g := fn% cfn "scimFields") (env := [("p", .ptr "SCIM" (some a))]) (by kernel_rfl) rfl (by simp [bindParams, zero_scim, coerce])).trans ?_
  rw [callN_rets]
  simp [evals, eval, lookup, get, one, field, loadObj, ha, scimVal, conv, zero_type, zero_string, coerce]

theorem cl_scimFields_nil : callClient prog cprog X (n + 1) "scimFields" [.ptr "SCIM" none] h = .panic .nilDeref := by
  refine (cl_start (g := fn% cfn "scimFields") (env := [("p", .ptr "SCIM" none)]) (by kernel_rfl) rfl (by simp [bindParams, zero_scim, coerce])).trans ?_
  rw [callN_rets]
  simp [evals, eval, lookup, get, one, field]

/-! ## JSON -/

/-- `b, err := f(); return string(b), err` -/
theorem ret_bytes {env : Env} {e : Expr} {v : Val} {h' : Heap} {t : Bytes} (hs : get "string" env = none)
    (he : eval prog X (callN prog X n) e ⟨env, h⟩ = .ok ([v, .nil], ⟨env, h'⟩)) (hv : coerceDefault v = v) (ht : toStr h' v = .ok (.str t)) :
    callN prog X (n + 1) [.name "string", .name "error"] env (.cons (.define ["b", "err"] (.cons e .nil))
      (.cons (.ret (.cons (.call (.id "string") (.cons (.id "b") .nil) false) (.cons (.id "err") .nil))) .nil)) h = .ok ([.str t, .nil], h') := by
  have e1 : execs prog X (callN prog X n) n (.cons (.define ["b", "err"] (.cons e .nil))
      (.cons (.ret (.cons (.call (.id "string") (.cons (.id "b") .nil) false) (.cons (.id "err") .nil))) .nil)) ⟨env, h⟩ =
      .ok (.ret [.str t, .nil], ⟨("b", v) :: ("err", .nil) :: env, h'⟩) := by
    have hn : coerceDefault .nil = .nil := rfl
    simp [execs, exec, evals, he, eval, lookup, get, hs, hv, hn, callName, ht]
  rw [callN_ret e1 rfl]
  simp [zero_string, zero_error, coerce]

theorem ret_bytes_panic {env : Env} {e : Expr} {p : Panic} {ss : Stmts} {rs : List Ty} {xs : List String}
    (he : eval prog X (callN prog X n) e ⟨env, h⟩ = .panic p) :
    callN prog X (n + 1) rs env (.cons (.define xs (.cons e .nil)) ss) h = .panic p := by
  have e1 : execs prog X (callN prog X n) n (.cons (.define xs (.cons e .nil)) ss) ⟨env, h⟩ = .panic p := by
    simp [execs, exec, evals, he]
  exact callN_panic e1

theorem toStr_new {c : Nat} {t : Bytes} (hc : h[c]? = some (.arr t)) : toStr h (.bytes c 0 t.length t.length) = .ok (.str t) := by
  simp [toStr, loadBytes, hc, Cell.cut, cutBytes]

theorem cl_marshalJSON_cell {u : URN} {sp : Option Nat} {tl : Val} (hv : h[a]? = some (.obj (urnValW sp tl u))) : ∃ h', (∀ c, c < h.length → h'[c]? = h[c]?) ∧
    callClient prog cprog X (n + 3) "marshalJSON" [.ptr "URN" (some a)] h = .ok ([.str (u.marshalJSON X.json), .nil], h') := by
  refine ⟨_, fun c hc => List.getElem?_append_left hc, (cl_start (g := fn% cfn "marshalJSON") (env := [("p", .ptr "URN" (some a))]) (by kernel_rfl) rfl (by simp [bindParams, zero_urn, coerce])).trans
    (ret_bytes (v := .bytes (h.length + 1) 0 (u.marshalJSON X.json).length (u.marshalJSON X.json).length) (h' := h ++ [.obj (urnValW sp tl u), .arr (u.marshalJSON X.json)]) (by simp [get]) ?_ rfl ?_)⟩
  · rw [eval_method (by simp [get]; rfl)]
    simp [method, find_marshal, find_marshal_ptr, loadObj, hv, evals, marshal_cell (X := X) (n := n)]
  · exact toStr_new (by simp)

theorem cl_marshalJSON {u : URN} (r : UrnPtr h (some a) (some u)) : ∃ h', (∀ c, c < h.length → h'[c]? = h[c]?) ∧
    callClient prog cprog X (n + 3) "marshalJSON" [.ptr "URN" (some a)] h = .ok ([.str (u.marshalJSON X.json), .nil], h') := by
  obtain ⟨_, v, ha, hv, sp, tl, rfl, -, -⟩ := r
  cases ha
  exact cl_marshalJSON_cell hv

theorem cl_marshalJSON_nil : callClient prog cprog X (n + 1) "marshalJSON" [.ptr "URN" none] h = .panic .nilDeref :=
  (cl_start (g := fn% cfn "marshalJSON") (env := [("p", .ptr "URN" none)]) (by kernel_rfl) rfl (by simp [bindParams, zero_urn, coerce])).trans
    (ret_bytes_panic (by rw [eval_method (v := .ptr "URN" none) (by simp [get])]; simp [method, find_marshal, find_marshal_ptr]))

theorem cl_scimMarshalJSON {s : SCIM} (hs : h[a]? = some (.obj (scimVal s))) : ∃ h', (∀ c, c < h.length → h'[c]? = h[c]?) ∧
    callClient prog cprog X (n + 4) "scimMarshalJSON" [.ptr "SCIM" (some a)] h = .ok ([.str (s.marshalJSON X.json), .nil], h') := by
  refine ⟨_, fun c hc => List.getElem?_append_left hc, (cl_start (g := fn% cfn "scimMarshalJSON") (env := [("p", .ptr "SCIM" (some a))]) (by kernel_rfl) rfl (by simp [bindParams, zero_scim, coerce])).trans
    (ret_bytes (v := .bytes (h.length + 1) 0 (s.marshalJSON X.json).length (s.marshalJSON X.json).length) (h' := h ++ [.obj (scimVal s), .arr (s.marshalJSON X.json)]) (by simp [get]) ?_ rfl ?_)⟩
  · rw [eval_method (by simp [get]; rfl)]
    simp [method, find_scimMarshal, find_scimMarshal_ptr, loadObj, hs, evals, scimMarshal_call (X := X) (n := n)]
  · exact toStr_new (by simp)

theorem cl_scimMarshalJSON_nil : callClient prog cprog X (n + 1) "scimMarshalJSON" [.ptr "SCIM" none] h = .panic .nilDeref :=
  (cl_start (g := fn% cfn "scimMarshalJSON") (env := [("p", .ptr "SCIM" none)]) (by kernel_rfl) rfl (by simp [bindParams, zero_scim, coerce])).trans
    (ret_bytes_panic (by rw [eval_method (v := .ptr "SCIM" none) (by simp [get])]; simp [method, find_scimMarshal, find_scimMarshal_ptr]))

theorem eval_lit_method {call : Call} {t : Ty} {es : Elems} {args : Exprs} {f : String} {s' : Bool} {st : State} :
    eval prog X call (.call (.sel (.lit t es) f) args s') st = ((eval prog X call (.lit t es) st) >>= fun a =>
      one a.1 >>= fun v => method prog a.2.heap v f >>= fun y =>
      (evals prog X call args ⟨a.2.env, y.2.2⟩) >>= fun x =>
      (callFn prog call y.1 (some y.2.1) x.1 s' x.2.heap) >>= fun y => .ok (y.1, { x.2 with heap := y.2 })) := by
  rw [eval.eq_def]
  rfl

theorem eval_8141 {call : Call} {env : Env} {p : Option Nat} (hp : get "p" env = some (.ptr "URN" p)) :
    eval prog X call (.lit (.name "URN8141") (.cons "" (.id "p") .nil)) ⟨env, h⟩ = .ok ([val8141 p], ⟨env, h⟩) := by
  simp [eval, evalElems, lookup, hp, one, fill_8141, val8141]

theorem cl_marshal8141_cell {u : URN} {sp : Option Nat} {tl : Val} (hv : h[a]? = some (.obj (urnValW sp tl u))) : ∃ h', (∀ c, c < h.length → h'[c]? = h[c]?) ∧
    callClient prog cprog X (n + 3) "marshal8141" [.ptr "URN" (some a)] h = .ok ([.str (X.json.marshal u.string), .nil], h') := by
  refine ⟨_, fun c hc => List.getElem?_append_left hc, (cl_start (g := fn% cfn "marshal8141") (env := [("p", .ptr "URN" (some a))]) (by kernel_rfl) rfl (by simp [bindParams, zero_urn, coerce])).trans
    (ret_bytes (v := .bytes h.length 0 (X.json.marshal u.string).length (X.json.marshal u.string).length) (h' := h ++ [.arr (X.json.marshal u.string)]) (by simp [get]) ?_ rfl ?_)⟩
  · rw [eval_lit_method, eval_8141 (p := some a) (by simp [get])]
    have hm : method prog h (val8141 (some a)) "MarshalJSON" = .ok (marshal8141Fn, val8141 (some a), h) := by
      simp [method, val8141, find_marshal8141]
    simp [one, hm, evals, marshal8141_cell (X := X) (n := n) hv]
  · exact toStr_new (by simp)

theorem cl_marshal8141 {u : URN} (r : UrnPtr h (some a) (some u)) : ∃ h', (∀ c, c < h.length → h'[c]? = h[c]?) ∧
    callClient prog cprog X (n + 3) "marshal8141" [.ptr "URN" (some a)] h = .ok ([.str (X.json.marshal u.string), .nil], h') := by
  obtain ⟨_, v, ha, hv, sp, tl, rfl, -, -⟩ := r
  cases ha
  exact cl_marshal8141_cell hv

theorem cl_marshal8141_nil : callClient prog cprog X (n + 3) "marshal8141" [.ptr "URN" none] h = .panic .nilDeref := by
  refine (cl_start (g := fn% cfn "marshal8141") (env := [("p", .ptr "URN" none)]) (by kernel_rfl) rfl (by simp [bindParams, zero_urn, coerce])).trans
    (ret_bytes_panic ?_)
  rw [eval_lit_method, eval_8141 (p := none) (by simp [get])]
  have hm : method prog h (val8141 none) "MarshalJSON" = .ok (marshal8141Fn, val8141 none, h) := by
    simp [method, val8141, find_marshal8141]
  simp [one, hm, evals, marshal8141_nil]

/-- `u := &URN8141{p}; err := u.UnmarshalJSON([]byte(s)); return u.URN, err` -/
theorem cl_unmarshal8141 {p : Option Nat} {s : Bytes} {e : Option JErr} {u u' : URN8141} (hf : X.FitsJson s) (hr : u.unmarshalJSON X.json s = .ok (u', e)) :
    ∃ N, ∀ n, N ≤ n → ∃ h' p', callClient prog cprog X n "unmarshal8141" [.ptr "URN" p, .str s] h = .ok ([.ptr "URN" p', jerrVal X s e], h') ∧
      (∀ c, c < h.length → h'[c]? = h[c]?) ∧
      (e = none → UrnNew h' (h.length + 1) p' u'.urn) ∧ (e ≠ none → p' = p) := by
  have h0 : (h ++ [Cell.obj (val8141 p)] ++ [.arr s])[h.length]? = some (.obj (val8141 p)) := by simp
  have hb : Buf.has (h ++ [Cell.obj (val8141 p)] ++ [.arr s]) (.part (h.length + 1) [] [] s.length) s := ⟨by simp, Nat.le_refl _, by simp⟩
  obtain ⟨N, hN⟩ := unmarshal8141_new (X := X) h0 hb hf hr
  refine ⟨N + 1, fun n hn => ?_⟩
  obtain ⟨n, rfl⟩ : ∃ k, n = k + 1 := ⟨n - 1, by omega⟩
  obtain ⟨h', h1, h2, h3⟩ := hN n (by omega)
  have key : ∃ p', h'[h.length]? = some (.obj (val8141 p')) ∧
      (e = none → UrnNew h' (h.length + 1) p' u'.urn) ∧ (e ≠ none → p' = p) := by
    cases e with
    | none =>
        obtain ⟨q, hq, hu⟩ := h3
        refine ⟨q, hq, fun _ => ?_, fun hh => absurd rfl hh⟩
        cases ho : u'.urn with
        | none => rw [ho] at hu; exact hu
        | some x =>
            rw [ho] at hu
            obtain ⟨c, rfl, hc⟩ := hu
            exact ⟨c, rfl, hc.mono (by simp)⟩
    | some e => exact ⟨p, h3.1.trans h0, by simp, fun _ => rfl⟩
  obtain ⟨p', hp', hk⟩ := key
  refine ⟨h', p', ?_, ?_, hk⟩
  · refine (cl_start (g := fn% cfn "unmarshal8141") (env := [("p", .ptr "URN" p), ("s", .str s)]) (by kernel_rfl) rfl (by simp [bindParams, zero_urn, zero_string, coerce])).trans ?_
    have hm : method prog (h ++ [Cell.obj (val8141 p)]) (.ptr "URN8141" (some h.length)) "UnmarshalJSON" = .ok (unmarshal8141Fn, .ptr "URN8141" (some h.length), h ++ [Cell.obj (val8141 p)]) := by
      simp [method, find_unmarshal8141]
    have hj : coerceDefault (jerrVal X s e) = jerrVal X s e := by
      cases e with
      | none => rfl
      | some e => cases e <;> rfl
    have hcu : coerceDefault (.ptr "URN8141" (some h.length)) = .ptr "URN8141" (some h.length) := rfl
    have s1 : exec prog X (callN prog X n) n (.define ["u"] (.cons (.un .addr (.lit (.name "URN8141") (.cons "" (.id "p") .nil))) .nil))
        ⟨[("p", .ptr "URN" p), ("s", .str s)], h⟩ = .ok (.next, ⟨[("u", .ptr "URN8141" (some h.length)), ("p", .ptr "URN" p), ("s", .str s)], h ++ [.obj (val8141 p)]⟩) := by
      simp [exec, evals, eval, evalElems, lookup, get, one, fill_8141, val8141, hcu]
    have s2 : exec prog X (callN prog X n) n (.define ["err"] (.cons (.call (.sel (.id "u") "UnmarshalJSON") (.cons (.conv (.slice (.name "byte")) (.id "s")) .nil) false) .nil))
        ⟨[("u", .ptr "URN8141" (some h.length)), ("p", .ptr "URN" p), ("s", .str s)], h ++ [.obj (val8141 p)]⟩ =
        .ok (.next, ⟨[("err", jerrVal X s e), ("u", .ptr "URN8141" (some h.length)), ("p", .ptr "URN" p), ("s", .str s)], h'⟩) := by
      rw [exec, evals, eval_method (v := .ptr "URN8141" (some h.length)) (by simp [get]), hm]
      simp [Buf.val] at h1
      simp [evals, eval, lookup, get, newBytes, h1, hj]
    have e1 := (execs_next s1).trans ((execs_next (ss := .cons (.ret (.cons (.sel (.id "u") "URN") (.cons (.id "err") .nil))) .nil) s2).trans
      (c := .ok (.ret [.ptr "URN" p', jerrVal X s e], ⟨[("err", jerrVal X s e), ("u", .ptr "URN8141" (some h.length)), ("p", .ptr "URN" p), ("s", .str s)], h'⟩))
      (by simp [execs, exec, evals, eval, lookup, get, one, field, loadObj, hp', val8141]))
    refine (callN_ret e1 rfl).trans ?_
    simp [zero_urn, zero_error, coerce]
  · intro c hc
    rw [h2 c (by simp; omega) (by omega)]
    simp [List.getElem?_append_left, hc, Nat.lt_succ_of_lt hc]

/-! ## `Parse` -/

theorem append_loop {s : Bytes} {ms : Val} : ∀ (xs : List Int) (os : List Val),
    rangeLoop (fun v st => inScope st.env.length
      (jumps (entry prog X (callN prog X (n + 1)) (n + 1) (.cons (.assign (.cons (.id "options") .nil) (.cons (.call (.id "append") (.cons (.id "options") (.cons (.call (.id "WithParsingMode") (.cons (.id "x") .nil) false) .nil)) false) .nil)) .nil)) (n + 1)
        (execs prog X (callN prog X (n + 1)) (n + 1) (.cons (.assign (.cons (.id "options") .nil) (.cons (.call (.id "append") (.cons (.id "options") (.cons (.call (.id "WithParsingMode") (.cons (.id "x") .nil) false) .nil)) false) .nil)) .nil)
          { st with env := ("x", v) :: st.env }))) (xs.map (.int "ParsingMode")) ⟨[("options", .list os), ("s", .str s), ("modes", ms)], h⟩ =
      .ok (.next, ⟨[("options", .list (os ++ xs.map optVal)), ("s", .str s), ("modes", ms)], h⟩) := by
  intro xs
  induction xs with
  | nil => intro os; simp [rangeLoop]
  | cons x xs ih =>
      intro os
      simp only [List.map_cons, rangeLoop]
      have e1 : execs prog X (callN prog X (n + 1)) (n + 1) (.cons (.assign (.cons (.id "options") .nil) (.cons (.call (.id "append") (.cons (.id "options") (.cons (.call (.id "WithParsingMode") (.cons (.id "x") .nil) false) .nil)) false) .nil)) .nil)
          ⟨[("x", .int "ParsingMode" x), ("options", .list os), ("s", .str s), ("modes", ms)], h⟩ =
          .ok (.next, ⟨[("x", .int "ParsingMode" x), ("options", .list (os ++ [optVal x])), ("s", .str s), ("modes", ms)], h⟩) := by
        simp [execs, exec, evals, eval, lookup, get, callName, find_option, option_call, one, store, set, coerce]
      rw [e1]
      simp only [jumps, inScope, Res.ok_bind, Res.pure_eq]
      refine (ih (os ++ [optVal x])).trans ?_
      simp

theorem spread_parse {c : Call} {v : Val} {vs : List Val} : callFn prog c pkgParseFn none [v, .list vs] true h = callFn prog c pkgParseFn none (v :: vs) false h := by
  cases vs <;> simp [pkgParseFn, callFn, bindParams]

theorem cl_parse {s : Bytes} (xs : List Int) {r : ParseResult} (hf : X.Fits s) (hr : parse s (xs.map withParsingMode) = .ok r) (hn : 9 * s.length + 76 ≤ n) :
    ∃ h' p, callClient prog cprog X n "parse" [.str s, .list (xs.map (.int "ParsingMode"))] h = .ok ([.ptr "URN" p, .bool r.ok], h') ∧
      UrnNew h' h.length p r.urn ∧ ∀ c, c < h.length → h'[c]? = h[c]? := by
  obtain ⟨n, rfl⟩ : ∃ k, n = k + 2 := ⟨n - 2, by omega⟩
  have hb : Buf.has (h ++ [Cell.arr s]) (.part h.length [] [] s.length) s := ⟨by simp, Nat.le_refl _, by simp⟩
  obtain ⟨h', p, he, h1, -, -, h4⟩ := pkgParse_call (X := X) (n := n + 1) xs hb hf hr (by omega)
  rw [← spread_parse] at he
  simp only [Buf.val, List.length_nil] at he
  refine ⟨h', p, ?_, ?_, ?_⟩
  · refine (cl_start (g := fn% cfn "parse") (env := [("s", .str s), ("modes", .list (xs.map (.int "ParsingMode")))]) (by kernel_rfl) rfl ?_).trans ?_
    · simp [bindParams, zero_string, coerce]
    have s1 : exec prog X (callN prog X (n + 1)) (n + 1) (.define ["options"] (.cons (.lit (.slice (.name "Option")) .nil) .nil))
        ⟨[("s", .str s), ("modes", .list (xs.map (.int "ParsingMode")))], h⟩ =
        .ok (.next, ⟨[("options", .list []), ("s", .str s), ("modes", .list (xs.map (.int "ParsingMode")))], h⟩) := by
      have : coerceDefault (.list []) = .list [] := rfl
      simp [exec, evals, eval, evalElems, this]
    have s2 := append_loop (X := X) (n := n) (h := h) (s := s) (ms := .list (xs.map (.int "ParsingMode"))) xs []
    have s2' : exec prog X (callN prog X (n + 1)) (n + 1) (.range "x" (.id "modes") (.cons (.assign (.cons (.id "options") .nil) (.cons (.call (.id "append") (.cons (.id "options") (.cons (.call (.id "WithParsingMode") (.cons (.id "x") .nil) false) .nil)) false) .nil)) .nil))
        ⟨[("options", .list []), ("s", .str s), ("modes", .list (xs.map (.int "ParsingMode")))], h⟩ =
        .ok (.next, ⟨[("options", .list (xs.map optVal)), ("s", .str s), ("modes", .list (xs.map (.int "ParsingMode")))], h⟩) := by
      have hm : eval prog X (callN prog X (n + 1)) (.id "modes") ⟨[("options", .list []), ("s", .str s), ("modes", .list (xs.map (.int "ParsingMode")))], h⟩ =
          .ok ([.list (xs.map (.int "ParsingMode"))], ⟨[("options", .list []), ("s", .str s), ("modes", .list (xs.map (.int "ParsingMode")))], h⟩) := by
        simp [eval, lookup, get]
      rw [exec, hm]
      exact s2
    have e1 := (execs_next s1).trans ((execs_next (ss := .cons (.ret (.cons (.call (.id "Parse") (.cons (.conv (.slice (.name "byte")) (.id "s")) (.cons (.id "options") .nil)) true) .nil)) .nil) s2').trans
      (c := .ok (.ret [.ptr "URN" p, .bool r.ok], ⟨[("options", .list (xs.map optVal)), ("s", .str s), ("modes", .list (xs.map (.int "ParsingMode")))], h'⟩))
      (by simp [execs, exec, evals, eval, lookup, get, newBytes, callName, find_pkgParse, he]))
    refine (callN_ret e1 rfl).trans ?_
    simp [zero_urn, zero_bool, coerce]
  · cases ho : r.urn with
    | none => rw [ho] at h1; exact h1
    | some u =>
        rw [ho] at h1
        obtain ⟨c, rfl, hc⟩ := h1
        exact ⟨c, rfl, hc.mono (by simp)⟩
  · intro c hc
    rw [h4 c (by simp; omega) (by simp [Buf.away]; omega), List.getElem?_append_left hc]

end
end Urn.GoLang
