import Verif.GoActs
/-!
# The actions with conditions and loops
-/
set_option autoImplicit false
set_option linter.unusedSimpArgs false
namespace Urn.GoLang
open Tables (Act)

section
variable {X : Ext} {call : Call} {fuel c : Nat} {h0 h : Heap} {L : Locs} {sp : Option Nat} {m : Machine} {o : URN}

/-! ### Actions with conditions -/

theorem inScope_env {env : Env} (sg : Sig) (h' : Heap) {n : Nat} (hn : n = env.length) :
    inScope n (.ok (sg, ⟨env, h'⟩)) = .ok (sg, ⟨env, h'⟩) := by
  simp [inScope, hn]

theorem exec_if_true {e : Expr} {a b : Stmts} {env : Env} {h' : Heap} {sg : Sig} (ha : noLabels a = true)
    (he : eval prog X call e ⟨env, h⟩ = .ok ([.bool true], ⟨env, h⟩))
    (hb : execs prog X call fuel a ⟨env, h⟩ = .ok (sg, ⟨env, h'⟩)) :
    exec prog X call fuel (.if_ .nil e a b) ⟨env, h⟩ = .ok (sg, ⟨env, h'⟩) := by
  simp only [exec, execs, Res.ok_bind, he, jumps_noLabels ha, hb, inScope_env]

theorem exec_if_false {e : Expr} {a b : Stmts} {env : Env} {h' : Heap} {sg : Sig} (ha : noLabels b = true)
    (he : eval prog X call e ⟨env, h⟩ = .ok ([.bool false], ⟨env, h⟩))
    (hb : execs prog X call fuel b ⟨env, h⟩ = .ok (sg, ⟨env, h'⟩)) :
    exec prog X call fuel (.if_ .nil e a b) ⟨env, h⟩ = .ok (sg, ⟨env, h'⟩) := by
  simp only [exec, execs, Res.ok_bind, he, jumps_noLabels ha, hb, inScope_env]

/-- The first statement jumps. -/
theorem execs_goto {s : Stmt} {ss : Stmts} {st st' : State} {l : String} (hs : exec prog X call fuel s st = .ok (.goto l, st')) :
    execs prog X call fuel (.cons s ss) st = .ok (.goto l, st') := by
  simp [execs, hs]

theorem execs_next {s : Stmt} {ss : Stmts} {st st' : State} (hs : exec prog X call fuel s st = .ok (.next, st')) :
    execs prog X call fuel (.cons s ss) st = execs prog X call fuel ss st' := by
  simp [execs, hs]

/-- `if e { ... }` when `e` is false. -/
theorem exec_ifS_false {e : Expr} {a : Stmts} {env : Env}
    (he : eval prog X call e ⟨env, h⟩ = .ok ([.bool false], ⟨env, h⟩)) :
    exec prog X call fuel (ifS e a) ⟨env, h⟩ = .ok (.next, ⟨env, h⟩) := exec_if_false rfl he (by simp only [execs])

/-- `m.parsingMode` -/
theorem eval_mode {env : Env} (r : RepAt h0 h L sp m o) (he : get "m" env = some (.ptr "machine" (some L.am))) :
    eval prog X call (mSel "parsingMode") ⟨env, h⟩ = .ok ([.int "ParsingMode" m.parsingMode], ⟨env, h⟩) := by
  simp [eval, lookup, he, one, field, loadObj, r.mach, machVal, get]

theorem eval_bin {op : BinOp} {a b : Expr} {st : State} {x y v : Val} (ho : op ≠ .and ∧ op ≠ .or)
    (ha : eval prog X call a st = .ok ([x], st)) (hb : eval prog X call b st = .ok ([y], st)) (hv : binVal X.bits op x y = some v) :
    eval prog X call (.bin op a b) st = .ok ([v], st) := by
  rw [eval]
  simp only [ha, Res.ok_bind, one]
  split
  · exact absurd rfl ho.1
  · exact absurd rfl ho.1
  · exact absurd rfl ho.2
  · exact absurd rfl ho.2
  · simp [hb, hv, one]

theorem eval_or {a b : Expr} {st : State} {x y : Bool}
    (ha : eval prog X call a st = .ok ([.bool x], st)) (hb : eval prog X call b st = .ok ([.bool y], st)) :
    eval prog X call (.bin .or a b) st = .ok ([.bool (x || y)], st) := by
  rw [eval]
  simp only [ha, Res.ok_bind, one]
  cases x <;> simp [hb]

theorem eval_and {a b : Expr} {st : State} {x y : Bool}
    (ha : eval prog X call a st = .ok ([.bool x], st)) (hb : x = true → eval prog X call b st = .ok ([.bool y], st)) :
    eval prog X call (.bin .and a b) st = .ok ([.bool (x && y)], st) := by
  rw [eval]
  simp only [ha, Res.ok_bind, one]
  cases x
  · simp
  · simp [hb rfl]

theorem eval_var {env : Env} {x : String} {v : Val} (hv : lookup prog env x = some v) :
    eval prog X call (.id x) ⟨env, h⟩ = .ok ([v], ⟨env, h⟩) := by
  simp [eval, hv]

theorem look_2141 {env : Env} (he : get "RFC2141Only" env = none) : lookup prog env "RFC2141Only" = some (.int "ParsingMode" 1) := by
  simp only [lookup, he, c_RFC2141Only]
theorem look_8141 {env : Env} (he : get "RFC8141Only" env = none) : lookup prog env "RFC8141Only" = some (.int "ParsingMode" 3) := by
  simp only [lookup, he, c_RFC8141Only]

theorem sim_errHex : ActSim X call fuel h0 L .errHex := by
  rintro h m o fl m' o' ⟨sp, r⟩ - he
  have hm := r.mach
  have hc : eval prog X call (.bin .or (.bin .eq (mSel "parsingMode") (.id "RFC2141Only"))
      (.bin .eq (mSel "parsingMode") (.id "RFC8141Only"))) ⟨envOf L, h⟩ =
      .ok ([.bool (decide (m.parsingMode = 1 ∨ m.parsingMode = 3))], ⟨envOf L, h⟩) := by
    have := eval_or (eval_bin (op := .eq) ⟨by decide, by decide⟩ (eval_mode (X := X) (call := call) (env := envOf L) r rfl) (eval_var (look_2141 rfl)) (by rfl))
      (eval_bin (op := .eq) ⟨by decide, by decide⟩ (eval_mode (X := X) (call := call) (env := envOf L) r rfl) (eval_var (look_8141 rfl)) (by rfl))
    rw [this]
    simp only [Bool.decide_or]
    rfl
  simp only [execActBits, execAct] at he
  split at he
  · rename_i hcond
    cases he
    obtain ⟨h', h1, h2⟩ := exec_raise (fuel := fuel) (call := call) (X := X) .hex r (env := envOf L) rfl rfl rfl (eval_p r rfl)
    refine ⟨h', ?_, sp, h2⟩
    rw [decide_eq_true hcond] at hc
    exact execs_goto (exec_if_true rfl hc h1)
  · rename_i hcond
    cases he
    rw [decide_eq_false hcond] at hc
    refine ⟨h, ?_, sp, r⟩
    rw [actStmts, execs_next (exec_ifS_false hc)]
    simp [execs, sigOf]

theorem sim_markRStart : ActSim X call fuel h0 L .markRStart := by
  rintro h m o fl m' o' ⟨sp, r⟩ - he
  have ho := r.out
  have hc : eval prog X call (oSel "rStart") ⟨envOf L, h⟩ = .ok ([.bool o.rStart], ⟨envOf L, h⟩) := by
    simp [eval, lookup, envOf, get, one, field, loadObj, ho, urnVal]
  simp only [execActBits, execAct] at he
  split at he
  · rename_i hcond
    cases he
    obtain ⟨h', h1, h2⟩ := exec_raise (fuel := fuel) (call := call) (X := X) .rComponentStart8141 r (env := envOf L) rfl rfl rfl (eval_p r rfl)
    refine ⟨h', ?_, sp, h2⟩
    rw [hcond] at hc
    exact execs_goto (exec_if_true rfl hc h1)
  · rename_i hcond
    cases he
    rw [eq_false_of_ne_true hcond] at hc
    refine ⟨_, ?_, sp, r.set_out (o' := { o with rStart := true }) rfl⟩
    rw [actStmts, execs_next (exec_ifS_false hc)]
    simp [execs, exec, evals, eval, store, one, lookup, envOf, get, setField, loadObj, ho, urnVal, set, coerce, sigOf, c_true]

theorem sim_markQStart : ActSim X call fuel h0 L .markQStart := by
  rintro h m o fl m' o' ⟨sp, r⟩ - he
  have ho := r.out
  have hc : eval prog X call (oSel "qStart") ⟨envOf L, h⟩ = .ok ([.bool o.qStart], ⟨envOf L, h⟩) := by
    simp [eval, lookup, envOf, get, one, field, loadObj, ho, urnVal]
  simp only [execActBits, execAct] at he
  split at he
  · rename_i hcond
    cases he
    obtain ⟨h', h1, h2⟩ := exec_raise (fuel := fuel) (call := call) (X := X) .qComponentStart8141 r (env := envOf L) rfl rfl rfl (eval_p r rfl)
    refine ⟨h', ?_, sp, h2⟩
    rw [hcond] at hc
    exact execs_goto (exec_if_true rfl hc h1)
  · rename_i hcond
    cases he
    rw [eq_false_of_ne_true hcond] at hc
    refine ⟨_, ?_, sp, r.set_out (o' := { o with qStart := true }) rfl⟩
    rw [actStmts, execs_next (exec_ifS_false hc)]
    simp [execs, exec, evals, eval, store, one, lookup, envOf, get, setField, loadObj, ho, urnVal, set, coerce, sigOf, c_true]

theorem sim_errScimOther : ActSim X call fuel h0 L .errScimOther := by
  rintro h m o fl m' o' ⟨sp, r⟩ - he
  have hm := r.mach
  have hl := r.am_set
  have hc : eval prog X call (.bin .eq (mSel "p") (mSel "pe")) ⟨envOf L, h⟩ =
      .ok ([.bool (decide (m.p = m.pe))], ⟨envOf L, h⟩) := by
    by_cases h1 : m.p = m.pe <;>
    simp [eval, lookup, envOf, get, one, field, loadObj, hm, machVal, binVal, eqVal, common, h1]
  simp only [execActBits, execAct] at he
  split at he
  · rename_i hcond
    cases he
    refine ⟨_, ?_, sp, r.set_mach (m' := (raiseBits X.bits .scimOtherIncomplete (wrap X.bits (m.p - 1)) m o).2.1) rfl⟩
    rw [decide_eq_true hcond] at hc
    obtain ⟨t, ht, hs⟩ := err_text .scimOtherIncomplete
    simp only [errName] at ht
    rw [actStmts, execs_next (exec_if_true rfl hc (by
      simp [execs, exec, evals, eval, eval_ext, isExt, extCall, store, one, lookup, envOf, get, field, setField, loadObj, hm,
        machVal, set, coerce, binVal, common, wrapInt, wrap, ht, hs]; rfl))]
    simp [execs, exec, evals, eval, store, one, lookup, envOf, get, field, setField, loadObj, hl, machVal, set, coerce, binVal, common,
      wrapInt, wrap, raiseBits, sigOf, errVal, Tables.enFail]
  · rename_i hcond
    cases he
    refine ⟨_, ?_, sp, r.set_mach (m' := (raiseBits X.bits .scimOther m.p m o).2.1) rfl⟩
    rw [decide_eq_false hcond] at hc
    obtain ⟨t, ht, hs⟩ := err_text .scimOther
    simp only [errName] at ht
    rw [actStmts, execs_next (exec_if_false rfl hc (by
      simp [execs, exec, evals, eval, eval_ext, isExt, extCall, store, one, lookup, envOf, get, field, setField, loadObj, hm,
        machVal, set, coerce, binVal, common, wrapInt, wrap, ht, hs]; rfl))]
    simp [execs, exec, evals, eval, store, one, lookup, envOf, get, field, setField, loadObj, hl, machVal, set, coerce, binVal, common,
      wrapInt, wrap, raiseBits, sigOf, errVal, Tables.enFail]

/-! ### `throwPreUrnErr` -/

/-- `m.pe` and `m.data` -/
theorem eval_pe {env : Env} (r : RepAt h0 h L sp m o) (he : get "m" env = some (.ptr "machine" (some L.am))) :
    eval prog X call (mSel "pe") ⟨env, h⟩ = .ok ([.int "int" m.pe], ⟨env, h⟩) := by
  simp [eval, lookup, he, one, field, loadObj, r.mach, machVal, get]
theorem eval_data {env : Env} (r : RepAt h0 h L sp m o) (he : get "m" env = some (.ptr "machine" (some L.am))) :
    eval prog X call (mSel "data") ⟨env, h⟩ = .ok ([L.buf.val L.len], ⟨env, h⟩) := by
  simp [eval, lookup, he, one, field, loadObj, r.mach, machVal, get]
theorem eval_pb {env : Env} (r : RepAt h0 h L sp m o) (he : get "m" env = some (.ptr "machine" (some L.am))) :
    eval prog X call (mSel "pb") ⟨env, h⟩ = .ok ([.int "int" m.pb], ⟨env, h⟩) := by
  simp [eval, lookup, he, one, field, loadObj, r.mach, machVal, get]

theorem sim_throwPreUrnErr : ActSim X call fuel h0 L .throwPreUrnErr := by
  rintro h m o fl m' o' ⟨sp, r⟩ - he
  have hm := r.mach
  have ho := r.out
  have hc : eval prog X call (.bin .ne (mSel "parsingMode") (.id "RFC8141Only")) ⟨envOf L, h⟩ =
      .ok ([.bool (decide (m.parsingMode ≠ 3))], ⟨envOf L, h⟩) := by
    rw [eval_bin (op := .ne) ⟨by decide, by decide⟩ (eval_mode (X := X) (call := call) (env := envOf L) r rfl)
      (eval_var (look_8141 rfl)) (by rfl)]
    rw [decide_not]
    rfl
  simp only [execActBits, execAct] at he
  split at he
  · rename_i hcond
    rw [decide_eq_true hcond] at hc
    -- the variables in the inner `if`
    have henv : get "m" (("pos", .int "int" (wrap X.bits (m.p + 3))) :: envOf L) = some (.ptr "machine" (some L.am)) := rfl
    have hinit : execs prog X call fuel (.cons (.define ["pos"] (.cons (.bin .add (mSel "p") (.num 3)) .nil)) .nil) ⟨envOf L, h⟩ =
        .ok (.next, ⟨("pos", .int "int" (wrap X.bits (m.p + 3))) :: envOf L, h⟩) := by
      rw [execs_next (st' := ⟨("pos", .int "int" (wrap X.bits (m.p + 3))) :: envOf L, h⟩)]
      · simp only [execs]
      · have := eval_bin (op := .add) ⟨by decide, by decide⟩ (eval_p (X := X) (call := call) (env := envOf L) r rfl)
          (b := .num 3) (y := .int "" 3) (by simp only [eval]; rfl) (v := .int "int" (wrap X.bits (m.p + 3))) (by rfl)
        simp only [exec, evals, this, Res.ok_bind, Res.pure_eq]
        rfl
    have hpe : eval prog X call (mSel "pe") ⟨("pos", .int "int" (wrap X.bits (m.p + 3))) :: envOf L, h⟩ =
        .ok ([.int "int" m.pe], ⟨("pos", .int "int" (wrap X.bits (m.p + 3))) :: envOf L, h⟩) := by
      exact eval_pe r henv
    have hdat : eval prog X call (mSel "data") ⟨("pos", .int "int" (wrap X.bits (m.p + 3))) :: envOf L, h⟩ =
        .ok ([L.buf.val L.len], ⟨("pos", .int "int" (wrap X.bits (m.p + 3))) :: envOf L, h⟩) := by
      exact eval_data r henv
    have hpre : eval prog X call (oSel "prefix") ⟨("pos", .int "int" (wrap X.bits (m.p + 3))) :: envOf L, h⟩ =
        .ok ([.str o.prefix], ⟨("pos", .int "int" (wrap X.bits (m.p + 3))) :: envOf L, h⟩) := by
      simp [eval, lookup, envOf, one, field, loadObj, ho, urnVal, get]
    have hpos : eval prog X call (.id "pos") ⟨("pos", .int "int" (wrap X.bits (m.p + 3))) :: envOf L, h⟩ =
        .ok ([.int "int" (wrap X.bits (m.p + 3))], ⟨("pos", .int "int" (wrap X.bits (m.p + 3))) :: envOf L, h⟩) := by
      simp [eval, lookup, get]
    have hlt := eval_bin (op := .lt) ⟨by decide, by decide⟩ hpos hpe (v := .bool (decide (wrap X.bits (m.p + 3) < m.pe))) (by rfl)
    have hne := eval_bin (op := .ne) ⟨by decide, by decide⟩ hpre (b := .str []) (y := .str []) (by simp [eval, bytesOf])
      (v := .bool (!(o.prefix == []))) (by rfl)
    -- both outcomes of the inner condition
    have hgo : ∀ {sg : Sig} {h' : Heap} {cond : Bool},
        eval prog X call (.bin .and (.bin .and (.bin .lt (.id "pos") (mSel "pe")) (.bin .eq (.index (mSel "data") (.id "pos")) (.num 58)))
          (.bin .ne (oSel "prefix") (.str []))) ⟨("pos", .int "int" (wrap X.bits (m.p + 3))) :: envOf L, h⟩ =
            .ok ([.bool cond], ⟨("pos", .int "int" (wrap X.bits (m.p + 3))) :: envOf L, h⟩) →
        (cond = true → execs prog X call fuel (.cons (errS "errNoUrnWithinID" (.id "pos")) failS)
          ⟨("pos", .int "int" (wrap X.bits (m.p + 3))) :: envOf L, h⟩ = .ok (sg, ⟨("pos", .int "int" (wrap X.bits (m.p + 3))) :: envOf L, h'⟩)) →
        (cond = false → sg = .next ∧ h' = h) →
        execs prog X call fuel (actStmts .throwPreUrnErr) ⟨envOf L, h⟩ = .ok (sg, ⟨envOf L, h'⟩) := by
      intro sg h' cond h1 h2 h3
      have key : execs prog X call fuel (.cons (.if_ (.cons (.define ["pos"] (.cons (.bin .add (mSel "p") (.num 3)) .nil)) .nil)
          (.bin .and (.bin .and (.bin .lt (.id "pos") (mSel "pe")) (.bin .eq (.index (mSel "data") (.id "pos")) (.num 58)))
            (.bin .ne (oSel "prefix") (.str []))) (.cons (errS "errNoUrnWithinID" (.id "pos")) failS) .nil) .nil) ⟨envOf L, h⟩ =
          .ok (sg, ⟨envOf L, h'⟩) := by
        rw [execs, exec]
        simp only [hinit, Res.ok_bind, h1]
        cases cond
        · obtain ⟨rfl, rfl⟩ := h3 rfl
          simp only [execs, jumps, inScope_env]
          simp [inScope]
        · simp only [h2 rfl, jumps_noLabels (b := .cons (errS "errNoUrnWithinID" (.id "pos")) failS) rfl, inScope_env]
          simp only [inScope, Res.ok_bind, Res.pure_eq]
          cases sg <;> simp [execs]
      have hh := exec_if_true (b := .nil) rfl hc key
      rw [actStmts, execs, hh]
      cases sg <;> simp [execs]
    by_cases hp : wrap X.bits (m.p + 3) < m.pe
    · simp only [hp, if_true] at he
      cases hi : index m.data (wrap X.bits (m.p + 3)) with
      | error p => simp [hi, bind, Except.bind] at he
      | ok ch =>
          simp only [hi, bind, Except.bind] at he
          have hiv := Buf.index_val r.buf hi
          rw [r.len] at hiv
          have hix : eval prog X call (.index (mSel "data") (.id "pos")) ⟨("pos", .int "int" (wrap X.bits (m.p + 3))) :: envOf L, h⟩ =
              .ok ([.int "byte" ch.toNat], ⟨("pos", .int "int" (wrap X.bits (m.p + 3))) :: envOf L, h⟩) := by
            rw [eval]
            simp only [hdat, hpos, Res.ok_bind, one, hiv, Res.pure_eq]
          have h58 := eval_bin (op := .eq) ⟨by decide, by decide⟩ hix (b := .num 58) (y := .int "" 58) (by simp only [eval]; rfl)
            (v := .bool ((ch.toNat : Int) == 58)) (by rfl)
          have hall := eval_and (eval_and hlt (fun _ => h58)) (fun _ => hne)
          have hch : ((ch.toNat : Int) == 58) = (ch == 58) := by
            rw [Bool.eq_iff_iff]
            simp only [beq_iff_eq]
            constructor
            · intro hq
              apply UInt8.toNat_inj.1
              have : ch.toNat = 58 := by omega
              rw [this]; rfl
            · intro hq
              rw [hq]; rfl
          rw [hch] at hall
          simp only [hp, decide_true, Bool.true_and] at hall
          by_cases hq : (ch == 58 && decide (o.prefix ≠ [])) = true
          · rw [if_pos hq] at he
            cases he
            obtain ⟨h', h1, h2⟩ := exec_raise (fuel := fuel) (call := call) (X := X) .noUrnWithinID r
              (env := ("pos", .int "int" (wrap X.bits (m.p + 3))) :: envOf L) rfl rfl rfl hpos
            refine ⟨h', hgo hall (fun _ => h1) ?_, sp, h2⟩
            intro hf
            simp at hq hf
            exact absurd (hf hq.1) hq.2
          · rw [if_neg hq] at he
            cases he
            refine ⟨h, hgo hall ?_ (fun _ => ⟨rfl, rfl⟩), sp, r⟩
            intro hf
            simp at hq hf
            exact absurd (hq hf.1) hf.2
    · simp only [hp, if_false] at he
      cases he
      refine ⟨h, hgo (eval_and (x := false) (y := true) (eval_and (x := false) (y := true) (by rw [hlt, decide_eq_false hp]) (by simp)) (by simp))
        (by simp) (fun _ => ⟨rfl, rfl⟩), sp, r⟩
  · rename_i hcond
    rw [decide_eq_false hcond] at hc
    cases he
    refine ⟨h, ?_, sp, r⟩
    rw [actStmts, execs_next (exec_ifS_false hc)]
    simp [execs, sigOf]

/-! ### `setScimType` -/

/-- scim/schema/type.go:25-36 -/
def typeFn : Fn where
  recv := none
  name := "TypeFromString"
  params := [{ name := "input", ty := .name "string", variadic := false }]
  results := [.name "Type"]
  body := .cons (.switch (.id "input")
      (.case (.str [115, 99, 104, 101, 109, 97, 115]) (.cons (.ret (.cons (.id "Schemas") .nil)) .nil)
      (.case (.str [97, 112, 105]) (.cons (.ret (.cons (.id "API") .nil)) .nil)
      (.case (.str [112, 97, 114, 97, 109]) (.cons (.ret (.cons (.id "Param") .nil)) .nil) .nil))))
    (.cons (.ret (.cons (.id "Unsupported") .nil)) .nil)
theorem find_type : findFn prog none "TypeFromString" = some typeFn := by kernel_rfl

theorem zero_type : zero prog 3 (.name "Type") = .int "Type" 0 := by kernel_rfl
theorem zero_string (P : Prog) : zero P 3 (.name "string") = .str [] := by simp [zero]

theorem callFn_type (t : Bytes) (s : Bool) : callFn prog (callN prog X (c + 1)) typeFn none [.str t] s h =
    .ok ([.int "Type" (SchemaType.fromString t)], h) := by
  have e1 : bytesOf [115, 99, 104, 101, 109, 97, 115] = Urn.lit "schemas" := by decide +kernel
  have e2 : bytesOf [97, 112, 105] = Urn.lit "api" := by decide +kernel
  have e3 : bytesOf [112, 97, 114, 97, 109] = Urn.lit "param" := by decide +kernel
  unfold SchemaType.fromString
  by_cases h1 : t = Urn.lit "schemas"
  · simp [callFn, typeFn, bindParams, callN, execs, exec, evals, eval, lookup, get, one, execCases, eqVal, e1, h1, c_Schemas,
      jumps_noLabels, noLabels, jumps, entry, inScope, zero_type, zero_string, coerce]
  · by_cases h2 : t = Urn.lit "api"
    · have h1' : ¬ Urn.lit "api" = Urn.lit "schemas" := by decide +kernel
      simp [callFn, typeFn, bindParams, callN, execs, exec, evals, eval, lookup, get, one, execCases, eqVal, e1, e2, h1', beq_eq_false_iff_ne.2 h1', h2, c_API,
        jumps_noLabels, noLabels, jumps, entry, inScope, zero_type, zero_string, coerce]
    · by_cases h3 : t = Urn.lit "param"
      · have h1' : ¬ Urn.lit "param" = Urn.lit "schemas" := by decide +kernel
        have h2' : ¬ Urn.lit "param" = Urn.lit "api" := by decide +kernel
        simp [callFn, typeFn, bindParams, callN, execs, exec, evals, eval, lookup, get, one, execCases, eqVal, e1, e2, e3, h1', h2', h3,
          beq_eq_false_iff_ne.2 h1', beq_eq_false_iff_ne.2 h2',
          c_Param, jumps_noLabels, noLabels, jumps, entry, inScope, zero_type, zero_string, coerce]
      · simp [callFn, typeFn, bindParams, callN, execs, exec, evals, eval, lookup, get, one, execCases, execDefault, eqVal, e1, e2, e3,
          beq_eq_false_iff_ne.2 h1, beq_eq_false_iff_ne.2 h2, beq_eq_false_iff_ne.2 h3, h1, h2, h3,
          c_Unsupported, jumps_noLabels, noLabels, jumps, entry, inScope, zero_type, zero_string, coerce]

theorem sim_setScimType : ActSim X (callN prog X (c + 1)) fuel h0 L .setScimType := by
  rintro h m o fl m' o' ⟨sp, r⟩ - he
  have hs := r.scim
  cases ht : m.text with
  | error p => simp [execActBits, execAct, ht, bind, Except.bind] at he
  | ok t =>
      cases ho : o.scim with
      | none => simp [execActBits, execAct, ho, ht, bind, Except.bind] at he
      | some s =>
          rw [ho] at hs
          obtain ⟨a, rfl, h1, h2⟩ := hs
          simp [execActBits, execAct, ho, ht, bind, Except.bind, pure, Except.pure] at he
          obtain ⟨rfl, rfl, rfl⟩ := he
          refine ⟨_, ?_, some a, r.set_scim ho { s with Typ := SchemaType.fromString t }⟩
          have ho := r.out
          have hx : eval prog X (callN prog X (c + 1)) (.call (.sel (.id "scimschema") "TypeFromString") (.cons textE .nil) false)
              ⟨envOf L, h⟩ = .ok ([.int "Type" (SchemaType.fromString t)], ⟨envOf L, h⟩) := by
            rw [eval_scimschema (by rfl)]
            simp only [evals, eval_text r (env := envOf L) rfl rfl ht, Res.ok_bind, Res.pure_eq, List.append_nil]
            have hg : get "TypeFromString" (envOf L) = none := rfl
            simp [callName, hg, find_type, callFn_type]
          simp only [actStmts, execs, exec, evals, hx, Res.ok_bind]
          simp [store, one, eval, lookup, envOf, get, field, setField, loadObj, ho, h1, urnVal, scimVal, set, coerce, sigOf]

/-! ### `setNss` -/

theorem byte_add (x : UInt8) : UInt8.ofNat (((x.toNat : Int) + 32) % 256).toNat = x + 32 := by
  apply UInt8.toNat_inj.1
  have := x.toNat_lt
  simp only [UInt8.toNat_ofNat', UInt8.toNat_add]
  have : (32 : UInt8).toNat = 32 := rfl
  rw [this]
  omega

theorem byte_sub (x : UInt8) : UInt8.ofNat (((x.toNat : Int) - 32) % 256).toNat = x + (-32) := by
  apply UInt8.toNat_inj.1
  have := x.toNat_lt
  simp only [UInt8.toNat_ofNat', UInt8.toNat_add]
  have : (-32 : UInt8).toNat = 224 := rfl
  rw [this]
  omega

/-- What a pass of the loops does. -/
theorem exec_shift {op : BinOp} {delta : UInt8} {i : Int} {d' : Bytes} {ch : UInt8} (r : RepAt h0 h L sp m o) (hL : L.see.no (wrap X.bits (m.pb + i)) = false)
    (hop : op ≠ .and ∧ op ≠ .or)
    (hbin : ∀ x : UInt8, ∃ n : Int, binVal X.bits op (.int "byte" x.toNat) (.int "" 32) = some (.int "byte" n) ∧
      UInt8.ofNat n.toNat = x + delta)
    (hi : index m.data (wrap X.bits (m.pb + i)) = .ok ch) (hs : Urn.store m.data (wrap X.bits (m.pb + i)) (ch + delta) = .ok d') :
    ∃ h', execs prog X call fuel (.cons (asg dataI (.bin op dataI (.num 32))) .nil) ⟨("i", .int "int" i) :: envOf L, h⟩ =
      .ok (.next, ⟨("i", .int "int" i) :: envOf L, h'⟩) ∧ RepAt h0 h' L sp { m with data := d' } o := by
  have henv : get "m" (("i", .int "int" i) :: envOf L) = some (.ptr "machine" (some L.am)) := rfl
  have hidx : eval prog X call (.bin .add (mSel "pb") (.id "i")) ⟨("i", .int "int" i) :: envOf L, h⟩ =
      .ok ([.int "int" (wrap X.bits (m.pb + i))], ⟨("i", .int "int" i) :: envOf L, h⟩) :=
    eval_bin (op := .add) ⟨by decide, by decide⟩ (eval_pb r henv) (eval_var (v := .int "int" i) (by simp [lookup, get])) (by rfl)
  have hdata := eval_data (X := X) (call := call) r henv
  have hiv := Buf.index_val r.buf hi
  rw [r.len] at hiv
  have hix : eval prog X call dataI ⟨("i", .int "int" i) :: envOf L, h⟩ =
      .ok ([.int "byte" ch.toNat], ⟨("i", .int "int" i) :: envOf L, h⟩) := by
    unfold dataI
    rw [eval]
    simp only [hdata, hidx, Res.ok_bind, one, hiv, Res.pure_eq]
  obtain ⟨n, hn, hx⟩ := hbin ch
  have hval := eval_bin (op := op) hop hix (b := .num 32) (y := .int "" 32) (by simp only [eval]; rfl) hn
  rw [← hx] at hs
  obtain ⟨a, pre, post, cap, hb, hset⟩ := Buf.setIndex_val (t := "byte") r.buf hL hs
  rw [r.len] at hset
  have hlen : d'.length = m.data.length := by
    unfold Urn.store at hs
    split at hs
    · cases hs; simp
    · cases hs
  refine ⟨_, ?_, r.set_buf hb hlen⟩
  rw [execs_next (st' := ⟨("i", .int "int" i) :: envOf L, h.set a (cellOf L.see pre d' post)⟩)]
  · simp only [execs]
  · simp only [exec, evals, hval, Res.ok_bind, Res.pure_eq, List.append_nil, one]
    simp only [store, hdata, hidx, Res.ok_bind, one, hset, Res.pure_eq]

theorem range_shift {op : BinOp} {delta : UInt8}  (hop : op ≠ .and ∧ op ≠ .or)
    (hbin : ∀ x : UInt8, ∃ n : Int, binVal X.bits op (.int "byte" x.toNat) (.int "" 32) = some (.int "byte" n) ∧
      UInt8.ofNat n.toNat = x + delta) : ∀ (is : List Int) {h : Heap} {m : Machine} {d' : Bytes}, (L.ro = true → is.any (fun i => L.see.no (wrap X.bits (m.pb + i))) = false) → RepAt h0 h L sp m o →
    shiftAllBits X.bits m.pb delta is m.data = .ok d' →
    ∃ h', rangeLoop (fun v st => inScope st.env.length (jumps (entry prog X call fuel (.cons (asg dataI (.bin op dataI (.num 32))) .nil))
        fuel (execs prog X call fuel (.cons (asg dataI (.bin op dataI (.num 32))) .nil) { st with env := ("i", v) :: st.env })))
        (is.map (.int "int")) ⟨envOf L, h⟩ = .ok (.next, ⟨envOf L, h'⟩) ∧ RepAt h0 h' L sp { m with data := d' } o
  | [], h, m, d', hL, r, hs => by
      cases hs
      exact ⟨h, by simp [rangeLoop], r⟩
  | i :: is, h, m, d', hL, r, hs => by
      simp only [List.any_cons, Bool.or_eq_false_iff] at hL
      have hL1 : L.see.no (wrap X.bits (m.pb + i)) = false := by
        cases e : L.ro with
        | false => exact Seen.no_ro e
        | true => exact (hL e).1
      unfold shiftAllBits at hs
      cases hi : index m.data (wrap X.bits (m.pb + i)) with
      | error p => simp [hi, bind, Except.bind] at hs
      | ok ch =>
          cases hst : Urn.store m.data (wrap X.bits (m.pb + i)) (ch + delta) with
          | error p => simp [hi, hst, bind, Except.bind] at hs
          | ok d1 =>
              simp only [hi, hst, bind, Except.bind] at hs
              obtain ⟨h1, e1, r1⟩ := exec_shift (X := X) (call := call) (fuel := fuel) r hL1 hop hbin hi hst
              obtain ⟨h2, e2, r2⟩ := range_shift (m := { m with data := d1 }) hop hbin is (fun e => (hL e).2) r1 hs
              refine ⟨h2, ?_, r2⟩
              simp only [List.map_cons, rangeLoop]
              rw [jumps_noLabels rfl, e1]
              have : inScope (envOf L).length (.ok (.next, ⟨("i", .int "int" i) :: envOf L, h1⟩)) =
                  .ok (.next, ⟨envOf L, h1⟩) := by simp [inScope]
              rw [this]
              exact e2

/-- One of the two loops. -/
theorem exec_range {op : BinOp} {delta : UInt8} {d' : Bytes} (hop : op ≠ .and ∧ op ≠ .or)
    (hbin : ∀ x : UInt8, ∃ n : Int, binVal X.bits op (.int "byte" x.toNat) (.int "" 32) = some (.int "byte" n) ∧
      UInt8.ofNat n.toNat = x + delta) (r : RepAt h0 h L sp m o) (hL : L.ro = true → o.tolower.any (fun i => L.see.no (wrap X.bits (m.pb + i))) = false) (hs : shiftAllBits X.bits m.pb delta o.tolower m.data = .ok d') :
    ∃ h', exec prog X call fuel (shiftS op) ⟨envOf L, h⟩ = .ok (.next, ⟨envOf L, h'⟩) ∧ RepAt h0 h' L sp { m with data := d' } o := by
  obtain ⟨h', e, r'⟩ := range_shift (X := X) (call := call) (fuel := fuel) hop hbin o.tolower hL r hs
  refine ⟨h', ?_, r'⟩
  have ht : eval prog X call (oSel "tolower") ⟨envOf L, h⟩ = .ok ([.list (o.tolower.map (.int "int"))], ⟨envOf L, h⟩) := by
    simp [eval, lookup, envOf, get, one, field, loadObj, r.out, urnVal]
  unfold shiftS
  rw [exec]
  simp only [ht, Res.ok_bind]
  exact e

theorem bin_add (x : UInt8) : ∃ n : Int, binVal X.bits .add (.int "byte" x.toNat) (.int "" 32) = some (.int "byte" n) ∧
    UInt8.ofNat n.toNat = x + 32 :=
  ⟨_, by simp [binVal, common, wrapInt, wrap], byte_add x⟩
theorem bin_sub (x : UInt8) : ∃ n : Int, binVal X.bits .sub (.int "byte" x.toNat) (.int "" 32) = some (.int "byte" n) ∧
    UInt8.ofNat n.toNat = x + (-32) :=
  ⟨_, by simp [binVal, common, wrapInt, wrap], byte_sub x⟩

/-- `output.SS = string(m.text())` -/
theorem exec_SS {t : Bytes} (r : RepAt h0 h L sp m o) (ht : m.text = .ok t) :
    ∃ h', exec prog X (callN prog X (c + 1)) fuel (asg (oSel "SS") textE) ⟨envOf L, h⟩ = .ok (.next, ⟨envOf L, h'⟩) ∧
      RepAt h0 h' L sp m { o with SS := t } := by
  refine ⟨_, ?_, r.set_out (o' := { o with SS := t }) rfl⟩
  have ho := r.out
  simp only [exec, evals, eval_text r (env := envOf L) rfl rfl ht, Res.ok_bind]
  simp [store, one, eval, lookup, envOf, get, setField, loadObj, ho, urnVal, set, coerce, sigOf]
/-- `output.norm = string(m.text())` -/
theorem exec_norm {t : Bytes} (r : RepAt h0 h L sp m o) (ht : m.text = .ok t) :
    ∃ h', exec prog X (callN prog X (c + 1)) fuel (asg (oSel "norm") textE) ⟨envOf L, h⟩ = .ok (.next, ⟨envOf L, h'⟩) ∧
      RepAt h0 h' L sp m { o with norm := t } := by
  refine ⟨_, ?_, r.set_out (o' := { o with norm := t }) rfl⟩
  have ho := r.out
  simp only [exec, evals, eval_text r (env := envOf L) rfl rfl ht, Res.ok_bind]
  simp [store, one, eval, lookup, envOf, get, setField, loadObj, ho, urnVal, set, coerce, sigOf]

theorem sim_setNss : ActSim X (callN prog X (c + 1)) fuel h0 L .setNss := by
  rintro h m o fl m' o' ⟨sp, r⟩ hq he
  have hL : L.ro = true → o.tolower.any (fun i => L.see.no (wrap X.bits (m.pb + i))) = false := hq
  cases ht : m.text with
  | error p => simp [execActBits, execAct, ht, bind, Except.bind] at he
  | ok ss =>
      cases h1 : shiftAllBits X.bits m.pb 32 o.tolower m.data with
      | error p => simp [execActBits, execAct, ht, h1, bind, Except.bind] at he
      | ok d1 =>
          cases h2 : Machine.text { m with data := d1 } with
          | error p => simp [execActBits, execAct, ht, h1, h2, bind, Except.bind] at he
          | ok norm =>
              cases h3 : shiftAllBits X.bits m.pb (-32) o.tolower d1 with
              | error p => simp [execActBits, execAct, ht, h1, h2, h3, bind, Except.bind] at he
              | ok d2 =>
                  simp [execActBits, execAct, ht, h1, h2, h3, bind, Except.bind, pure, Except.pure] at he
                  obtain ⟨rfl, rfl, rfl⟩ := he
                  obtain ⟨k1, e1, r1⟩ := exec_SS (X := X) (c := c) (fuel := fuel) r ht
                  obtain ⟨k2, e2, r2⟩ := exec_range (X := X) (call := callN prog X (c + 1)) (fuel := fuel) (op := .add) (delta := 32)
                    ⟨by decide, by decide⟩ bin_add r1 hL h1
                  obtain ⟨k3, e3, r3⟩ := exec_norm (X := X) (c := c) (fuel := fuel) r2 h2
                  obtain ⟨k4, e4, r4⟩ := exec_range (X := X) (call := callN prog X (c + 1)) (fuel := fuel) (op := .sub) (delta := -32)
                    ⟨by decide, by decide⟩ bin_sub r3 hL h3
                  refine ⟨k4, ?_, sp, r4⟩
                  rw [actStmts, execs_next e1, execs_next e2, execs_next e3, execs_next e4]
                  simp only [execs, sigOf]

/-! ## All actions -/

theorem act_sim (a : Act) : ActSim X (callN prog X (c + 1)) fuel h0 L a := by
  cases a
  case mark => exact sim_mark
  case tolower => exact sim_tolower
  case setPre => exact sim_setPre
  case throwPreUrnErr => exact sim_throwPreUrnErr
  case setNid => exact sim_setNid
  case setNss => exact sim_setNss
  case errPre => exact sim_errPre
  case errNid => exact sim_errNid
  case errNss => exact sim_errNss
  case errUrn => exact sim_errUrn
  case errHex => exact sim_errHex
  case baseType => exact sim_baseType
  case errScimNid => exact sim_errScimNid
  case errScimType => exact sim_errScimType
  case errScimName => exact sim_errScimName
  case errScimOther => exact sim_errScimOther
  case scimType => exact sim_scimType
  case createScim => exact sim_createScim
  case setScimType => exact sim_setScimType
  case markScim => exact sim_markScim
  case setScimName => exact sim_setScimName
  case setScimOther => exact sim_setScimOther
  case errNss8141 => exact sim_errNss8141
  case errNid8141 => exact sim_errNid8141
  case rfc8141Type => exact sim_rfc8141Type
  case setRComponent => exact sim_setRComponent
  case setQComponent => exact sim_setQComponent
  case setFComponent => exact sim_setFComponent
  case informalNidMatch => exact sim_informalNidMatch
  case markRStart => exact sim_markRStart
  case markQStart => exact sim_markQStart
  case errMalformedR => exact sim_errMalformedR
  case errMalformedQ => exact sim_errMalformedQ

/-- A list of actions. -/
theorem acts_sim : ∀ (as : List Act) (h : Heap) (m : Machine) (o : URN) (fl : Flow) (m' : Machine) (o' : URN),
    Rep h0 h L m o → (L.ro = true → actsWrite X.bits L.see.no as m o = false) → execActsBits X.bits as m o = .ok (fl, m', o') →
    ∃ h', execs prog X (callN prog X (c + 1)) fuel (actsStmts as) ⟨envOf L, h⟩ = .ok (sigOf fl, ⟨envOf L, h'⟩) ∧ Rep h0 h' L m' o'
  | [], h, m, o, fl, m', o', r, hq, he => by
      cases he
      exact ⟨h, by simp [actsStmts, execs, sigOf], r⟩
  | a :: as, h, m, o, fl, m', o', r, hq, he => by
      unfold execActsBits at he
      cases h1 : execActBits X.bits a m o with
      | error p => simp [h1, bind, Except.bind] at he
      | ok x =>
          obtain ⟨fl1, m1, o1⟩ := x
          simp only [h1, bind, Except.bind] at he
          simp only [actsWrite, h1, Bool.or_eq_false_iff] at hq
          obtain ⟨k1, e1, r1⟩ := act_sim (X := X) (c := c) (fuel := fuel) a h m o fl1 m1 o1 r (fun e => (hq e).1) h1
          cases fl1 with
          | again =>
              cases he
              refine ⟨k1, ?_, r1⟩
              rw [actsStmts, execs_append, e1]
              simp [sigOf]
          | next =>
              obtain ⟨k2, e2, r2⟩ := acts_sim as k1 m1 o1 fl m' o' r1 (fun e => (hq e).2) he
              refine ⟨k2, ?_, r2⟩
              rw [actsStmts, execs_append, e1]
              simp only [Res.ok_bind, sigOf]
              exact e2

end
end Urn.GoLang
