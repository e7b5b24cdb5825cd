import Verif.GoParse
/-!
# The methods of URNs in the text and in the model
-/
set_option autoImplicit false
set_option linter.unusedSimpArgs false
set_option maxRecDepth 10000000
namespace Urn.GoLang

/-! ## How URNs are represented -/

/-- The struct `URN` with given values of the fields `scim` and `tolower`. -/
def urnValW (scim : Option Nat) (tl : Val) (o : URN) : Val :=
  .struct "URN" [("prefix", .str o.prefix), ("ID", .str o.ID), ("SS", .str o.SS), ("norm", .str o.norm),
    ("kind", .int "Kind" (kindNum o.kind)), ("scim", .ptr "SCIM" scim), ("rComponent", .str o.rComponent),
    ("qComponent", .str o.qComponent), ("fComponent", .str o.fComponent), ("rStart", .bool o.rStart), ("qStart", .bool o.qStart),
    ("tolower", tl)]

/-- A slice of positions; the empty one can be nil. -/
def posVal (l : List Int) (v : Val) : Prop := v = .list (l.map (.int "int")) ∨ v = .nil ∧ l = []

/-- A pointer to a SCIM struct in memory. -/
def ScimAt (h : Heap) (p : Option Nat) (s : Option SCIM) : Prop :=
  match s with
  | none => p = none
  | some s => ∃ a, p = some a ∧ h[a]? = some (.obj (scimVal s))

/-- This value is this URN. -/
def UrnIs (h : Heap) (v : Val) (o : URN) : Prop := ∃ sp tl, v = urnValW sp tl o ∧ posVal o.tolower tl ∧ ScimAt h sp o.scim

/-- A pointer to a URN in memory. -/
def UrnPtr (h : Heap) (p : Option Nat) (o : Option URN) : Prop :=
  match o with
  | none => p = none
  | some o => ∃ a v, p = some a ∧ h[a]? = some (.obj v) ∧ UrnIs h v o

section
variable {X : Ext} {n : Nat} {h : Heap} {a : Nat} {u : URN}

theorem UrnAt.ptr {lo : Nat} (r : UrnAt h lo a u) : UrnPtr h (some a) (some u) := by
  obtain ⟨_, sp, h1, h2⟩ := r
  refine ⟨a, _, rfl, h1, sp, _, rfl, .inl rfl, ?_⟩
  unfold ScimAt
  split <;> rename_i hs
  · rw [hs] at h2; exact h2
  · rw [hs] at h2
    obtain ⟨b, hb, hc, _⟩ := h2
    exact ⟨b, hb, hc⟩

/-! ## The functions of urn.go -/

def rfcFn : Fn := fn% fnOf (some (.ptr (.name "URN"))) "RFC"
theorem find_rfc : findFn prog (some (.ptr (.name "URN"))) "RFC" = some rfcFn := by kernel_rfl
def fFn : Fn := fn% fnOf (some (.ptr (.name "URN"))) "FComponent"
theorem find_f : findFn prog (some (.ptr (.name "URN"))) "FComponent" = some fFn := by kernel_rfl
def qFn : Fn := fn% fnOf (some (.ptr (.name "URN"))) "QComponent"
theorem find_q : findFn prog (some (.ptr (.name "URN"))) "QComponent" = some qFn := by kernel_rfl
def rFn : Fn := fn% fnOf (some (.ptr (.name "URN"))) "RComponent"
theorem find_r : findFn prog (some (.ptr (.name "URN"))) "RComponent" = some rFn := by kernel_rfl
def isScimFn : Fn := fn% fnOf (some (.ptr (.name "URN"))) "IsSCIM"
theorem find_isScim : findFn prog (some (.ptr (.name "URN"))) "IsSCIM" = some isScimFn := by kernel_rfl
def scimFn : Fn := fn% fnOf (some (.ptr (.name "URN"))) "SCIM"
theorem find_scim : findFn prog (some (.ptr (.name "URN"))) "SCIM" = some scimFn := by kernel_rfl
def normalizeFn : Fn := fn% fnOf (some (.ptr (.name "URN"))) "Normalize"
theorem find_normalize : findFn prog (some (.ptr (.name "URN"))) "Normalize" = some normalizeFn := by kernel_rfl
def equalFn : Fn := fn% fnOf (some (.ptr (.name "URN"))) "Equal"
theorem find_equal : findFn prog (some (.ptr (.name "URN"))) "Equal" = some equalFn := by kernel_rfl
def stringFn : Fn := fn% fnOf (some (.ptr (.name "URN"))) "String"
theorem find_string : findFn prog (some (.ptr (.name "URN"))) "String" = some stringFn := by kernel_rfl
theorem find_string_val : findFn prog (some (.name "URN")) "String" = none := by kernel_rfl
def marshalFn : Fn := fn% fnOf (some (.name "URN")) "MarshalJSON"
theorem find_marshal : findFn prog (some (.name "URN")) "MarshalJSON" = some marshalFn := by kernel_rfl
theorem find_marshal_ptr : findFn prog (some (.ptr (.name "URN"))) "MarshalJSON" = none := by kernel_rfl
def unmarshalFn : Fn := fn% fnOf (some (.ptr (.name "URN"))) "UnmarshalJSON"
theorem find_unmarshal : findFn prog (some (.ptr (.name "URN"))) "UnmarshalJSON" = some unmarshalFn := by kernel_rfl
def pkgParseFn : Fn := fn% fnOf none "Parse"
theorem find_pkgParse : findFn prog none "Parse" = some pkgParseFn := by kernel_rfl

theorem zero_kind : zero prog 3 (.name "Kind") = .int "Kind" 0 := by kernel_rfl
theorem c_false : get "false" prog.consts = none := by kernel_rfl
theorem zero_bool : zero prog 3 (.name "bool") = .bool false := by kernel_rfl
theorem zero_scim : zero prog 3 (.ptr (.name "SCIM")) = .ptr "SCIM" none := by kernel_rfl

theorem rfc_text (r : UrnPtr h (some a) (some u)) :
    runMethod prog X (n + 1) (.ptr "URN" (some a)) "RFC" [] h = .ok ([.int "Kind" (kindNum u.rfc)], h) := by
  obtain ⟨_, v, ha, hv, sp, tl, rfl, -, -⟩ := r
  cases ha
  simp only [runMethod, method, find_rfc]
  simp [rfcFn, callFn, bindParams, callN, execs, exec, evals, eval, one, lookup, get, field, loadObj, hv, urnValW, zero_kind, coerce, jumps_ret,
    URN.rfc]
  

theorem f_text (r : UrnPtr h (some a) (some u)) :
    runMethod prog X (n + 1) (.ptr "URN" (some a)) "FComponent" [] h = .ok ([.str u.getF], h) := by
  obtain ⟨_, v, ha, hv, sp, tl, rfl, -, -⟩ := r
  cases ha
  simp only [runMethod, method, find_f]
  simp [fFn, callFn, bindParams, callN, execs, exec, evals, eval, one, lookup, get, field, loadObj, hv, urnValW, zero_string, coerce, jumps_ret,
    URN.getF]

theorem q_text (r : UrnPtr h (some a) (some u)) :
    runMethod prog X (n + 1) (.ptr "URN" (some a)) "QComponent" [] h = .ok ([.str u.getQ], h) := by
  obtain ⟨_, v, ha, hv, sp, tl, rfl, -, -⟩ := r
  cases ha
  simp only [runMethod, method, find_q]
  simp [qFn, callFn, bindParams, callN, execs, exec, evals, eval, one, lookup, get, field, loadObj, hv, urnValW, zero_string, coerce, jumps_ret,
    URN.getQ]

theorem r_text (r : UrnPtr h (some a) (some u)) :
    runMethod prog X (n + 1) (.ptr "URN" (some a)) "RComponent" [] h = .ok ([.str u.getR], h) := by
  obtain ⟨_, v, ha, hv, sp, tl, rfl, -, -⟩ := r
  cases ha
  simp only [runMethod, method, find_r]
  simp [rFn, callFn, bindParams, callN, execs, exec, evals, eval, one, lookup, get, field, loadObj, hv, urnValW, zero_string, coerce, jumps_ret,
    URN.getR]

theorem kindNum_eq (k : Kind) : (kindNum k == 2) = (k == .RFC7643) := by cases k <;> rfl

theorem isScim_text (r : UrnPtr h (some a) (some u)) :
    runMethod prog X (n + 1) (.ptr "URN" (some a)) "IsSCIM" [] h = .ok ([.bool u.isSCIM], h) := by
  obtain ⟨_, v, ha, hv, sp, tl, rfl, -, -⟩ := r
  cases ha
  simp only [runMethod, method, find_isScim]
  simp [isScimFn, callFn, bindParams, callN, execs, exec, evals, eval, one, lookup, get, field, loadObj, hv, urnValW, zero_bool, coerce, jumps_ret,
    URN.isSCIM, c_RFC7643, binVal, eqVal, common, kindNum_eq]

theorem scim_text (r : UrnPtr h (some a) (some u)) :
    ∃ p, runMethod prog X (n + 1) (.ptr "URN" (some a)) "SCIM" [] h = .ok ([.ptr "SCIM" p], h) ∧ ScimAt h p u.getSCIM := by
  obtain ⟨_, v, ha, hv, sp, tl, rfl, -, hs⟩ := r
  cases ha
  simp only [runMethod, method, find_scim, URN.getSCIM]
  by_cases hk : u.kind = .RFC7643
  · refine ⟨sp, ?_, by simpa [hk] using hs⟩
    simp [scimFn, callFn, bindParams, callN, execs, exec, evals, eval, one, lookup, get, field, loadObj, hv, urnValW, zero_scim, coerce, jumps_ret,
      c_RFC7643, binVal, eqVal, common, kindNum_eq, hk, inScope, entry, jumps]
  · refine ⟨none, ?_, by simp [hk, ScimAt]⟩
    have : (u.kind == Kind.RFC7643) = false := by simpa using hk
    simp [scimFn, callFn, bindParams, callN, execs, exec, evals, eval, one, lookup, get, field, loadObj, hv, urnValW, zero_scim, coerce, jumps_ret,
      c_RFC7643, binVal, eqVal, common, kindNum_eq, this, inScope, entry, jumps, c_nil]

theorem fill_norm (i s : Bytes) : fill prog "URN" [("prefix", .str (bytesOf [117, 114, 110])), ("ID", .str i), ("SS", .str s)] =
    .ok (urnValW none .nil { «prefix» := lit "urn", ID := i, SS := s }) := by kernel_rfl

theorem normalize_call (r : UrnPtr h (some a) (some u)) :
    callFn prog (callN prog X (n + 1)) normalizeFn (some (.ptr "URN" (some a))) [] false h =
      .ok ([.ptr "URN" (some h.length)], h ++ [.obj (urnValW none .nil (u.normalize X.uni))]) := by
  obtain ⟨_, v, ha, hv, sp, tl, rfl, -, hs⟩ := r
  cases ha
  simp [normalizeFn, callFn, bindParams, callN, execs, exec, evals, eval, eval_ext, evalElems, one, lookup, get, field, loadObj, hv, urnValW, zero_urn, coerce, jumps_ret,
    isExt, extCall, fill_norm, URN.normalize]

theorem normalize_ptr {h' : Heap} (hx : h'[a]? = some (.obj (urnValW none .nil (u.normalize X.uni)))) : UrnPtr h' (some a) (some (u.normalize X.uni)) :=
  ⟨_, _, rfl, hx, none, .nil, rfl, .inr ⟨rfl, rfl⟩, rfl⟩

theorem ScimAt.app {p : Option Nat} {s : Option SCIM} (r : ScimAt h p s) (e : Heap) : ScimAt (h ++ e) p s := by
  cases s with
  | none => exact r
  | some s =>
      obtain ⟨a, ha, hb⟩ := r
      exact ⟨a, ha, by rw [List.getElem?_append_left (List.getElem?_eq_some_iff.1 hb).1]; exact hb⟩

theorem UrnPtr.app {p : Option Nat} {o : Option URN} (r : UrnPtr h p o) (e : Heap) : UrnPtr (h ++ e) p o := by
  cases o with
  | none => exact r
  | some o =>
      obtain ⟨a, v, ha, hb, sp, tl, h1, h2, h3⟩ := r
      exact ⟨a, v, ha, by rw [List.getElem?_append_left (List.getElem?_eq_some_iff.1 hb).1]; exact hb, sp, tl, h1, h2, h3.app e⟩

theorem equal_call {p : Option Nat} {x : Option URN} (r : UrnPtr h (some a) (some u)) (r' : UrnPtr h p x) :
    ∃ e, callFn prog (callN prog X (n + 2)) equalFn (some (.ptr "URN" (some a))) [.ptr "URN" p] false h =
      .ok ([.bool (u.equal X.uni x)], h ++ e) := by
  cases x with
  | none =>
      cases r'
      refine ⟨[], ?_⟩
      simp [equalFn, callFn, bindParams, callN, execs, exec, evals, eval, one, lookup, get, zero_bool, zero_urn, coerce, jumps_ret,
        binVal, eqVal, inScope, entry, jumps, c_nil, c_false, URN.equal]
  | some x =>
      obtain ⟨b, w, rfl, hb, -⟩ := id r'
      refine ⟨[.obj (urnValW none .nil (u.normalize X.uni)), .obj (urnValW none .nil (x.normalize X.uni))], ?_⟩
      have n1 := normalize_call (X := X) (n := n) r
      have n2 := normalize_call (X := X) (n := n) (r'.app [.obj (urnValW none .nil (u.normalize X.uni))])
      have l1 : (h ++ [Cell.obj (urnValW none .nil (u.normalize X.uni)), .obj (urnValW none .nil (x.normalize X.uni))])[h.length]? =
          some (.obj (urnValW none .nil (u.normalize X.uni))) := by simp
      have l2 : (h ++ [Cell.obj (urnValW none .nil (u.normalize X.uni)), .obj (urnValW none .nil (x.normalize X.uni))])[h.length + 1]? =
          some (.obj (urnValW none .nil (x.normalize X.uni))) := by simp
      have hf : callFn prog (callN prog X (n + 2)) equalFn (some (.ptr "URN" (some a))) [.ptr "URN" (some b)] false h =
          callN prog X (n + 2) [.name "bool"] [("u", .ptr "URN" (some a)), ("x", .ptr "URN" (some b))] equalFn.body h := by
        simp [equalFn, callFn, bindParams, zero_urn, coerce]
      have e1 : execs prog X (callN prog X (n + 1)) (n + 1) equalFn.body ⟨[("u", .ptr "URN" (some a)), ("x", .ptr "URN" (some b))], h⟩ =
          .ok (.ret [.bool (u.equal X.uni (some x))], ⟨[("nx", .ptr "URN" (some (h.length + 1))), ("nu", .ptr "URN" (some h.length)),
            ("u", .ptr "URN" (some a)), ("x", .ptr "URN" (some b))],
            h ++ [.obj (urnValW none .nil (u.normalize X.uni)), .obj (urnValW none .nil (x.normalize X.uni))]⟩) := by
        have s1 : exec prog X (callN prog X (n + 1)) (n + 1) (ifS (.bin .eq (.id "x") (.id "nil")) (.cons (.ret (.cons (.id "false") .nil)) .nil))
            ⟨[("u", .ptr "URN" (some a)), ("x", .ptr "URN" (some b))], h⟩ = .ok (.next, ⟨[("u", .ptr "URN" (some a)), ("x", .ptr "URN" (some b))], h⟩) :=
          exec_ifS_false (by simp [eval, one, lookup, get, binVal, eqVal, c_nil])
        have s2 : exec prog X (callN prog X (n + 1)) (n + 1) (.define ["nu"] (.cons (.call (.sel (.id "u") "Normalize") .nil false) .nil))
            ⟨[("u", .ptr "URN" (some a)), ("x", .ptr "URN" (some b))], h⟩ = .ok (.next, ⟨[("nu", .ptr "URN" (some h.length)),
              ("u", .ptr "URN" (some a)), ("x", .ptr "URN" (some b))], h ++ [.obj (urnValW none .nil (u.normalize X.uni))]⟩) := by
          simp [exec, evals, eval_method, get, method, find_normalize, n1, coerceDefault, coerce]
        have s3 : exec prog X (callN prog X (n + 1)) (n + 1) (.define ["nx"] (.cons (.call (.sel (.id "x") "Normalize") .nil false) .nil))
            ⟨[("nu", .ptr "URN" (some h.length)), ("u", .ptr "URN" (some a)), ("x", .ptr "URN" (some b))],
              h ++ [.obj (urnValW none .nil (u.normalize X.uni))]⟩ = .ok (.next, ⟨[("nx", .ptr "URN" (some (h.length + 1))),
              ("nu", .ptr "URN" (some h.length)), ("u", .ptr "URN" (some a)), ("x", .ptr "URN" (some b))],
              h ++ [.obj (urnValW none .nil (u.normalize X.uni)), .obj (urnValW none .nil (x.normalize X.uni))]⟩) := by
          simp [exec, evals, eval_method, get, method, find_normalize, n2, coerceDefault, coerce]
        have q : ∀ (f : String) (y z : Bytes), field (h ++ [Cell.obj (urnValW none .nil (u.normalize X.uni)), .obj (urnValW none .nil (x.normalize X.uni))])
              (.ptr "URN" (some h.length)) f = .ok (.str y) →
            field (h ++ [Cell.obj (urnValW none .nil (u.normalize X.uni)), .obj (urnValW none .nil (x.normalize X.uni))])
              (.ptr "URN" (some (h.length + 1))) f = .ok (.str z) →
            eval prog X (callN prog X (n + 1)) (.bin .eq (.sel (.id "nu") f) (.sel (.id "nx") f)) ⟨[("nx", .ptr "URN" (some (h.length + 1))),
              ("nu", .ptr "URN" (some h.length)), ("u", .ptr "URN" (some a)), ("x", .ptr "URN" (some b))],
              h ++ [.obj (urnValW none .nil (u.normalize X.uni)), .obj (urnValW none .nil (x.normalize X.uni))]⟩ =
            .ok ([.bool (y == z)], ⟨[("nx", .ptr "URN" (some (h.length + 1))),
              ("nu", .ptr "URN" (some h.length)), ("u", .ptr "URN" (some a)), ("x", .ptr "URN" (some b))],
              h ++ [.obj (urnValW none .nil (u.normalize X.uni)), .obj (urnValW none .nil (x.normalize X.uni))]⟩) := by
          intro f y z hy hz
          exact eval_bin (op := .eq) ⟨by decide, by decide⟩ (x := .str y) (y := .str z) (by simp [eval, one, lookup, get, hy])
            (by simp [eval, one, lookup, get, hz]) rfl
        have q1 := q "prefix" (u.normalize X.uni).prefix (x.normalize X.uni).prefix (by simp only [field, loadObj, l1]; rfl)
          (by simp only [field, loadObj, l2]; rfl)
        have q2 := q "ID" (u.normalize X.uni).ID (x.normalize X.uni).ID (by simp only [field, loadObj, l1]; rfl)
          (by simp only [field, loadObj, l2]; rfl)
        have q3 := q "SS" (u.normalize X.uni).SS (x.normalize X.uni).SS (by simp only [field, loadObj, l1]; rfl)
          (by simp only [field, loadObj, l2]; rfl)
        have q4 := eval_and (eval_and q1 fun _ => q2) fun _ => q3
        refine (execs_next s1).trans ((execs_next s2).trans ((execs_next s3).trans ?_))
        simp only [execs, exec, evals, q4, Res.ok_bind]
        rfl
      rw [hf, callN_ret e1 rfl]
      simp [zero_bool, coerce]

/-- `if e { ... }` that sets variables. -/
theorem exec_if_env {call : Call} {fuel : Nat} {e : Expr} {a b : Stmts} {env env' : Env} {h' : Heap} {sg : Sig} (ha : noLabels a = true)
    (he : eval prog X call e ⟨env, h⟩ = .ok ([.bool true], ⟨env, h⟩)) (hl : env'.length = env.length)
    (hb : execs prog X call fuel a ⟨env, h⟩ = .ok (sg, ⟨env', h'⟩)) :
    exec prog X call fuel (.if_ .nil e a b) ⟨env, h⟩ = .ok (sg, ⟨env', h'⟩) := by
  simp only [exec, execs, Res.ok_bind, he, jumps_noLabels ha, hb]
  simp [inScope, hl]

/-- `if u.f != "" { res += c + u.f }` -/
theorem exec_comp {call : Call} {F : Nat} {f : String} {x s : Bytes} {c : List Nat}
    (hf : field h (.ptr "URN" (some a)) f = .ok (.str x)) :
    exec prog X call F (.if_ .nil (.bin .ne (.sel (.id "u") f) (.str []))
      (.cons (.add (.id "res") (.bin .add (.str c) (.sel (.id "u") f))) .nil) .nil)
      ⟨[("res", .str s), ("u", .ptr "URN" (some a))], h⟩ =
    .ok (.next, ⟨[("res", .str (if x ≠ [] then s ++ (bytesOf c ++ x) else s)), ("u", .ptr "URN" (some a))], h⟩) := by
  cases x with
  | nil => simp [exec, execs, eval, one, lookup, get, hf, binVal, eqVal, bytesOf, inScope, entry, jumps]
  | cons x xs => simp [exec, execs, eval, one, lookup, get, hf, binVal, eqVal, bytesOf, inScope, entry, jumps, store, set, coerce]

/-- `String` of what is in a cell, whatever the pointer to the SCIM struct is. -/
theorem string_cell {sp : Option Nat} {tl : Val} (hv : h[a]? = some (.obj (urnValW sp tl u))) :
    callFn prog (callN prog X (n + 1)) stringFn (some (.ptr "URN" (some a))) [] false h = .ok ([.str u.string], h) := by
  have hf : callFn prog (callN prog X (n + 1)) stringFn (some (.ptr "URN" (some a))) [] false h =
      callN prog X (n + 1) [.name "string"] [("u", .ptr "URN" (some a))] stringFn.body h := by
    simp [stringFn, callFn, bindParams]
  have f1 : field h (.ptr "URN" (some a)) "prefix" = .ok (.str u.prefix) := by simp [field, loadObj, hv, urnValW, get]
  have f2 : field h (.ptr "URN" (some a)) "ID" = .ok (.str u.ID) := by simp [field, loadObj, hv, urnValW, get]
  have f3 : field h (.ptr "URN" (some a)) "SS" = .ok (.str u.SS) := by simp [field, loadObj, hv, urnValW, get]
  have f4 : field h (.ptr "URN" (some a)) "rComponent" = .ok (.str u.rComponent) := by simp [field, loadObj, hv, urnValW, get]
  have f5 : field h (.ptr "URN" (some a)) "qComponent" = .ok (.str u.qComponent) := by simp [field, loadObj, hv, urnValW, get]
  have f6 : field h (.ptr "URN" (some a)) "fComponent" = .ok (.str u.fComponent) := by simp [field, loadObj, hv, urnValW, get]
  have e1 : execs prog X (callN prog X n) n stringFn.body ⟨[("u", .ptr "URN" (some a))], h⟩ =
      .ok (.ret [.str u.string], ⟨[("res", .str u.string), ("u", .ptr "URN" (some a))], h⟩) := by
    have hp : exec prog X (callN prog X n) n (.if_ .nil (.bin .eq (.sel (.id "u") "prefix") (.str []))
        (.cons (.add (.id "res") (.str [117, 114, 110])) .nil) .nil) ⟨[("res", .str []), ("u", .ptr "URN" (some a))], h⟩ =
      .ok (.next, ⟨[("res", .str (if u.prefix = [] then lit "urn" else [])), ("u", .ptr "URN" (some a))], h⟩) := by
      have hu : bytesOf [117, 114, 110] = lit "urn" := by decide
      cases hx : u.prefix with
      | nil =>
          rw [hx] at f1
          simp [exec, execs, eval, one, lookup, get, f1, binVal, eqVal, bytesOf, inScope, entry, jumps, store, set, coerce, ← hu]
      | cons x xs =>
          rw [hx] at f1
          simp [exec, execs, eval, one, lookup, get, f1, binVal, eqVal, bytesOf, inScope, entry, jumps]
    have ha : ∀ s, exec prog X (callN prog X n) n (.add (.id "res") (.bin .add (.bin .add (.bin .add (.bin .add (.sel (.id "u") "prefix")
        (.str [58])) (.sel (.id "u") "ID")) (.str [58])) (.sel (.id "u") "SS"))) ⟨[("res", .str s), ("u", .ptr "URN" (some a))], h⟩ =
      .ok (.next, ⟨[("res", .str (s ++ (u.prefix ++ lit ":" ++ u.ID ++ lit ":" ++ u.SS))), ("u", .ptr "URN" (some a))], h⟩) := by
      intro s
      have hu : bytesOf [58] = lit ":" := by decide
      simp [exec, eval, one, lookup, get, f1, f2, f3, binVal, store, set, coerce, hu]
    have c1 : bytesOf [63, 43] = lit "?+" := by decide
    have c2 : bytesOf [63, 61] = lit "?=" := by decide
    have c3 : bytesOf [35] = lit "#" := by decide
    have hv0 : exec prog X (callN prog X n) n (.var "res" (.name "string")) ⟨[("u", .ptr "URN" (some a))], h⟩ =
      .ok (.next, ⟨[("res", .str []), ("u", .ptr "URN" (some a))], h⟩) := by
      simp [exec, zero_string]
    have hret : ∀ s, execs prog X (callN prog X n) n (.cons (.ret (.cons (.id "res") .nil)) .nil) ⟨[("res", .str s), ("u", .ptr "URN" (some a))], h⟩ =
      .ok (.ret [.str s], ⟨[("res", .str s), ("u", .ptr "URN" (some a))], h⟩) := by
      intro s
      simp [execs, exec, evals, eval, lookup, get]
    have hcond : eval prog X (callN prog X n) (.bin .and (.bin .ne (.sel (.id "u") "ID") (.str [])) (.bin .ne (.sel (.id "u") "SS") (.str [])))
        ⟨[("res", .str []), ("u", .ptr "URN" (some a))], h⟩ =
        .ok ([.bool (decide (u.ID ≠ [] ∧ u.SS ≠ []))], ⟨[("res", .str []), ("u", .ptr "URN" (some a))], h⟩) := by
      cases h1 : u.ID with
      | nil =>
          rw [h1] at f2
          simp [eval, one, lookup, get, f2, binVal, eqVal, bytesOf]
      | cons x xs =>
          rw [h1] at f2
          cases h2 : u.SS with
          | nil =>
              rw [h2] at f3
              simp [eval, one, lookup, get, f2, f3, binVal, eqVal, bytesOf]
          | cons y ys =>
              rw [h2] at f3
              simp [eval, one, lookup, get, f2, f3, binVal, eqVal, bytesOf]
    unfold stringFn
    simp only
    rw [execs_next hv0]
    by_cases hc : u.ID ≠ [] ∧ u.SS ≠ []
    · rw [decide_eq_true hc] at hcond
      have hnil : ∀ st, execs prog X (callN prog X n) n .nil st = .ok (.next, st) := by intro st; simp only [execs]
      have hin := (execs_next hp).trans ((execs_next (ha _)).trans ((execs_next (exec_comp (c := [63, 43]) f4)).trans
        ((execs_next (exec_comp (c := [63, 61]) f5)).trans ((execs_next (exec_comp (c := [35]) f6)).trans (hnil _)))))
      have hif := exec_if_env (b := .nil) (by rfl) hcond (by rfl) hin
      rw [execs_next (hif), hret]
      simp only [URN.string, hc, if_true, c1, c2, c3, and_self, ne_eq, not_false_eq_true]
    · rw [decide_eq_false hc] at hcond
      rw [execs_next (exec_ifS_false hcond), hret]
      simp only [URN.string, hc, if_false]
  rw [hf, callN_ret e1 rfl]
  simp [zero_string, coerce]

theorem string_call (r : UrnPtr h (some a) (some u)) :
    callFn prog (callN prog X (n + 1)) stringFn (some (.ptr "URN" (some a))) [] false h = .ok ([.str u.string], h) := by
  obtain ⟨_, v, ha, hv, sp, tl, rfl, -, -⟩ := r
  cases ha
  exact string_cell hv

/-- The value of a slice of bytes, and its contents. -/
def BytesAt (h : Heap) (v : Val) (d : Bytes) : Prop := ∃ b : Buf, v = b.val d.length ∧ b.has h d

theorem new_bytes (h : Heap) (d : Bytes) : BytesAt (h ++ [.arr d]) (.bytes h.length 0 d.length d.length) d := by
  refine ⟨.part h.length [] [] d.length, rfl, ?_, Nat.le_refl _, Nat.le_add_right _ _⟩
  simp

theorem marshal_cell {sp : Option Nat} {tl : Val} :
    callFn prog (callN prog X (n + 2)) marshalFn (some (urnValW sp tl u)) [] false h =
      .ok ([.bytes (h.length + 1) 0 (u.marshalJSON X.json).length (u.marshalJSON X.json).length, .nil],
        h ++ [.obj (urnValW sp tl u), .arr (u.marshalJSON X.json)]) := by
  have e := string_cell (X := X) (n := n) (h := h ++ [.obj (urnValW sp tl u)]) (a := h.length) (sp := sp) (tl := tl) (u := u) (by simp)
  have hm : method prog h (urnValW sp tl u) "String" = .ok (stringFn, .ptr "URN" (some h.length), h ++ [.obj (urnValW sp tl u)]) := by
    simp [method, urnValW, find_string, find_string_val]
  have e1 : execs prog X (callN prog X (n + 1)) (n + 1) marshalFn.body ⟨[("u", urnValW sp tl u)], h⟩ =
      .ok (.ret [.bytes (h.length + 1) 0 (u.marshalJSON X.json).length (u.marshalJSON X.json).length, .nil],
        ⟨[("u", urnValW sp tl u)], h ++ [.obj (urnValW sp tl u), .arr (u.marshalJSON X.json)]⟩) := by
    simp [marshalFn, execs, exec, evals, eval_ext, eval_method, get, isExt, hm, e, extCall, newBytes, URN.marshalJSON]
  have hf : callFn prog (callN prog X (n + 2)) marshalFn (some (urnValW sp tl u)) [] false h =
      callN prog X (n + 2) [.slice (.name "byte"), .name "error"] [("u", urnValW sp tl u)] marshalFn.body h := by
    simp [marshalFn, callFn, bindParams]
  rw [hf, callN_ret e1 rfl]
  simp [zero_bytes, zero_error, coerce]

theorem marshal_call {v : Val} (r : UrnIs h v u) :
    callFn prog (callN prog X (n + 2)) marshalFn (some v) [] false h =
      .ok ([.bytes (h.length + 1) 0 (u.marshalJSON X.json).length (u.marshalJSON X.json).length, .nil], h ++ [.obj v, .arr (u.marshalJSON X.json)]) := by
  obtain ⟨sp, tl, rfl, -, -⟩ := r
  exact marshal_cell

end
end Urn.GoLang
