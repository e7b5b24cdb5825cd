import Verif.GoRep
import Verif.GoWrites
/-!
# The actions in the text and the actions of the model
-/
set_option autoImplicit false
set_option linter.unusedSimpArgs false
namespace Urn.GoLang
open Tables (Act)

/-! ## Constants and functions of the program -/

theorem c_RFC2141Only : get "RFC2141Only" prog.consts = some (.int "ParsingMode" 1) := by kernel_rfl
theorem c_RFC7643Only : get "RFC7643Only" prog.consts = some (.int "ParsingMode" 2) := by kernel_rfl
theorem c_RFC8141Only : get "RFC8141Only" prog.consts = some (.int "ParsingMode" 3) := by kernel_rfl
theorem c_RFC2141 : get "RFC2141" prog.consts = some (.int "Kind" 1) := by kernel_rfl
theorem c_RFC7643 : get "RFC7643" prog.consts = some (.int "Kind" 2) := by kernel_rfl
theorem c_RFC8141 : get "RFC8141" prog.consts = some (.int "Kind" 3) := by kernel_rfl
theorem c_true : get "true" prog.consts = none := by kernel_rfl
theorem c_nil : get "nil" prog.consts = none := by kernel_rfl
theorem c_Unsupported : get "Unsupported" prog.consts = some (.int "Type" 0) := by kernel_rfl
theorem c_Schemas : get "Schemas" prog.consts = some (.int "Type" 1) := by kernel_rfl
theorem c_API : get "API" prog.consts = some (.int "Type" 2) := by kernel_rfl
theorem c_Param : get "Param" prog.consts = some (.int "Type" 3) := by kernel_rfl

/-- machine.go:133-135 -/
def textFn : Fn where
  recv := some { name := "m", ty := .ptr (.name "machine"), variadic := false }
  name := "text"
  params := []
  results := [.slice (.name "byte")]
  body := .cons (.ret (.cons (.slice (mSel "data") (mSel "pb") (mSel "p")) .nil)) .nil
theorem find_text : findFn prog (some (.ptr (.name "machine"))) "text" = some textFn := by kernel_rfl

section
variable {P : Prog} {X : Ext} {call : Call} {p f : String} {args : Exprs} {s : Bool} {st : State}
/-- Calls of functions of other packages. -/
theorem eval_ext (hp : get p st.env = none) (he : isExt p = true) (hj : f ≠ "Unmarshal") :
    eval P X call (.call (.sel (.id p) f) args s) st = ((evals P X call args st) >>= fun x =>
      (extCall X p f x.1 x.2.heap) >>= fun y => .ok (y.1, { x.2 with heap := y.2 })) := by
  rw [eval.eq_def]
  simp [hp, he, hj]
/-- Calls of functions of the package scimschema. -/
theorem eval_scimschema (hp : get "scimschema" st.env = none) :
    eval P X call (.call (.sel (.id "scimschema") f) args s) st = ((evals P X call args st) >>= fun x =>
      callName P call f x.1 s x.2) := by
  rw [eval.eq_def]
  simp [hp, isExt]
/-- Calls of methods of a variable. -/
theorem eval_method {v : Val} (hp : get p st.env = some v) :
    eval P X call (.call (.sel (.id p) f) args s) st = (method P st.heap v f >>= fun y =>
      (evals P X call args ⟨st.env, y.2.2⟩) >>= fun x =>
      (callFn P call y.1 (some y.2.1) x.1 s x.2.heap) >>= fun y => .ok (y.1, { x.2 with heap := y.2 })) := by
  rw [eval.eq_def]
  simp [hp, lookup]
end

section
variable {X : Ext} {call : Call} {fuel c : Nat} {h0 h : Heap} {L : Locs} {sp : Option Nat} {m : Machine} {o : URN}

/-- `string(m.text())` -/
theorem eval_text {t : Bytes} {env : Env} (r : RepAt h0 h L sp m o) (he : get "m" env = some (.ptr "machine" (some L.am)))
    (hs : get "string" env = none) (ht : m.text = .ok t) :
    eval prog X (callN prog X (c + 1)) textE ⟨env, h⟩ = .ok ([.str t], ⟨env, h⟩) := by
  obtain ⟨v, h1, h2⟩ := Buf.toStr_slice r.buf ht
  rw [r.len] at h1
  have hm := r.mach
  simp [eval, evals, callName, hs, he, lookup, method, find_text, textFn, callFn, bindParams, callN, execs, exec, get, one,
    field, loadObj, hm, machVal, h1, h2, jumps, zero, coerce]

theorem RepAt.am_set (r : RepAt h0 h L sp m o) (x : Cell) : (h.set L.am x)[L.am]? = some x := List.getElem?_set_self r.am_lt
theorem RepAt.ao_set (r : RepAt h0 h L sp m o) (x : Cell) : (h.set L.ao x)[L.ao]? = some x := List.getElem?_set_self r.ao_lt

/-- The statements that report an error. -/
theorem exec_raise {env : Env} {e : Expr} {col : Int} (k : ErrKind) (r : RepAt h0 h L sp m o)
    (he : get "m" env = some (.ptr "machine" (some L.am))) (hf : get "fmt" env = none) (hk : get (errName k) env = none)
    (hcol : eval prog X call e ⟨env, h⟩ = .ok ([.int "int" col], ⟨env, h⟩)) :
    ∃ h', execs prog X call fuel (.cons (errS (errName k) e) failS) ⟨env, h⟩ = .ok (.goto "_again", ⟨env, h'⟩) ∧
      RepAt h0 h' L sp (raiseBits X.bits k col m o).2.1 o := by
  refine ⟨_, ?_, r.set_mach (m' := (raiseBits X.bits k col m o).2.1) rfl⟩
  obtain ⟨t, ht, hs⟩ := err_text k
  have hm := r.mach
  have hl := r.am_set
  simp [execs, exec, evals, eval_ext, eval, store, hf, isExt, lookup, hk, ht, hcol, extCall, hs, one, he, field, setField, loadObj,
    hm, machVal, get, set, coerce, hl, raiseBits, binVal, common, wrapInt, wrap, errVal, Tables.enFail]

/-- What an action of the text does is what the action of the model does. -/
def ActSim (X : Ext) (call : Call) (fuel : Nat) (h0 : Heap) (L : Locs) (a : Act) : Prop :=
  ∀ (h : Heap) (m : Machine) (o : URN) (fl : Flow) (m' : Machine) (o' : URN), Rep h0 h L m o →
    (L.ro = true → actWrites X.bits L.see.no a m o = false) → execActBits X.bits a m o = .ok (fl, m', o') →
    ∃ h', execs prog X call fuel (actStmts a) ⟨envOf L, h⟩ = .ok (sigOf fl, ⟨envOf L, h'⟩) ∧ Rep h0 h' L m' o'

theorem sim_mark : ActSim X call fuel h0 L .mark := by
  rintro h m o fl m' o' ⟨sp, r⟩ - he
  cases he
  refine ⟨_, ?_, sp, r.set_mach (m' := { m with pb := m.p }) rfl⟩
  have hm := r.mach
  simp [actStmts, execs, exec, evals, eval, store, one, lookup, envOf, get, field, setField, loadObj, hm, machVal, set, coerce, sigOf]

theorem sim_tolower : ActSim X call fuel h0 L .tolower := by
  rintro h m o fl m' o' ⟨sp, r⟩ - he
  cases he
  refine ⟨_, ?_, sp, r.set_out (o' := { o with tolower := o.tolower ++ [wrap X.bits (m.p - m.pb)] }) rfl⟩
  have hm := r.mach
  have ho := r.out
  simp [actStmts, execs, exec, evals, eval, store, one, lookup, envOf, get, field, setField, loadObj, hm, ho, machVal, urnVal, set,
    coerce, sigOf, callName, binVal, common, wrapInt, wrap]

theorem sim_setPre : ActSim X (callN prog X (c + 1)) fuel h0 L .setPre := by
  rintro h m o fl m' o' ⟨sp, r⟩ - he
  cases ht : m.text with
  | error p => simp [execActBits, execAct, ht, bind, Except.bind] at he
  | ok t =>
      simp [execActBits, execAct, ht, bind, Except.bind, pure, Except.pure] at he
      obtain ⟨rfl, rfl, rfl⟩ := he
      refine ⟨_, ?_, sp, r.set_out (o' := { o with «prefix» := t }) rfl⟩
      have ho := r.out
      simp only [actStmts, execs, exec, evals, eval_text r (env := envOf L) rfl rfl ht, Res.ok_bind]
      simp [store, one, eval, lookup, envOf, get, setField, loadObj, ho, urnVal, set, coerce, sigOf]

theorem sim_setNid : ActSim X (callN prog X (c + 1)) fuel h0 L .setNid := by
  rintro h m o fl m' o' ⟨sp, r⟩ - he
  cases ht : m.text with
  | error p => simp [execActBits, execAct, ht, bind, Except.bind] at he
  | ok t =>
      simp [execActBits, execAct, ht, bind, Except.bind, pure, Except.pure] at he
      obtain ⟨rfl, rfl, rfl⟩ := he
      refine ⟨_, ?_, sp, r.set_out (o' := { o with ID := t }) rfl⟩
      have ho := r.out
      simp only [actStmts, execs, exec, evals, eval_text r (env := envOf L) rfl rfl ht, Res.ok_bind]
      simp [store, one, eval, lookup, envOf, get, setField, loadObj, ho, urnVal, set, coerce, sigOf]

theorem sim_setRComponent : ActSim X (callN prog X (c + 1)) fuel h0 L .setRComponent := by
  rintro h m o fl m' o' ⟨sp, r⟩ - he
  cases ht : m.text with
  | error p => simp [execActBits, execAct, ht, bind, Except.bind] at he
  | ok t =>
      simp [execActBits, execAct, ht, bind, Except.bind, pure, Except.pure] at he
      obtain ⟨rfl, rfl, rfl⟩ := he
      refine ⟨_, ?_, sp, r.set_out (o' := { o with rComponent := t }) rfl⟩
      have ho := r.out
      simp only [actStmts, execs, exec, evals, eval_text r (env := envOf L) rfl rfl ht, Res.ok_bind]
      simp [store, one, eval, lookup, envOf, get, setField, loadObj, ho, urnVal, set, coerce, sigOf]

theorem sim_setQComponent : ActSim X (callN prog X (c + 1)) fuel h0 L .setQComponent := by
  rintro h m o fl m' o' ⟨sp, r⟩ - he
  cases ht : m.text with
  | error p => simp [execActBits, execAct, ht, bind, Except.bind] at he
  | ok t =>
      simp [execActBits, execAct, ht, bind, Except.bind, pure, Except.pure] at he
      obtain ⟨rfl, rfl, rfl⟩ := he
      refine ⟨_, ?_, sp, r.set_out (o' := { o with qComponent := t }) rfl⟩
      have ho := r.out
      simp only [actStmts, execs, exec, evals, eval_text r (env := envOf L) rfl rfl ht, Res.ok_bind]
      simp [store, one, eval, lookup, envOf, get, setField, loadObj, ho, urnVal, set, coerce, sigOf]

theorem sim_setFComponent : ActSim X (callN prog X (c + 1)) fuel h0 L .setFComponent := by
  rintro h m o fl m' o' ⟨sp, r⟩ - he
  cases ht : m.text with
  | error p => simp [execActBits, execAct, ht, bind, Except.bind] at he
  | ok t =>
      simp [execActBits, execAct, ht, bind, Except.bind, pure, Except.pure] at he
      obtain ⟨rfl, rfl, rfl⟩ := he
      refine ⟨_, ?_, sp, r.set_out (o' := { o with fComponent := t }) rfl⟩
      have ho := r.out
      simp only [actStmts, execs, exec, evals, eval_text r (env := envOf L) rfl rfl ht, Res.ok_bind]
      simp [store, one, eval, lookup, envOf, get, setField, loadObj, ho, urnVal, set, coerce, sigOf]

theorem sim_baseType : ActSim X call fuel h0 L .baseType := by
  rintro h m o fl m' o' ⟨sp, r⟩ - he
  cases he
  refine ⟨_, ?_, sp, r.set_out (o' := { o with kind := .RFC2141 }) rfl⟩
  have ho := r.out
  simp [actStmts, execs, exec, evals, eval, store, one, lookup, envOf, get, setField, loadObj, ho, urnVal, set, coerce, sigOf,
    c_RFC2141, kindNum]

theorem sim_scimType : ActSim X call fuel h0 L .scimType := by
  rintro h m o fl m' o' ⟨sp, r⟩ - he
  cases he
  refine ⟨_, ?_, sp, r.set_out (o' := { o with kind := .RFC7643 }) rfl⟩
  have ho := r.out
  simp [actStmts, execs, exec, evals, eval, store, one, lookup, envOf, get, setField, loadObj, ho, urnVal, set, coerce, sigOf,
    c_RFC7643, kindNum]

theorem sim_rfc8141Type : ActSim X call fuel h0 L .rfc8141Type := by
  rintro h m o fl m' o' ⟨sp, r⟩ - he
  cases he
  refine ⟨_, ?_, sp, r.set_out (o' := { o with kind := .RFC8141 }) rfl⟩
  have ho := r.out
  simp [actStmts, execs, exec, evals, eval, store, one, lookup, envOf, get, setField, loadObj, ho, urnVal, set, coerce, sigOf,
    c_RFC8141, kindNum]

/-- `m.p` -/
theorem eval_p {env : Env} (r : RepAt h0 h L sp m o) (he : get "m" env = some (.ptr "machine" (some L.am))) :
    eval prog X call (mSel "p") ⟨env, h⟩ = .ok ([.int "int" m.p], ⟨env, h⟩) := by
  simp [eval, lookup, he, one, field, loadObj, r.mach, machVal, get]

theorem sim_raise {a : Act} (k : ErrKind) (ha : actStmts a = .cons (errS (errName k) (mSel "p")) failS)
    (hm : ∀ m o, execActBits X.bits a m o = .ok (raiseBits X.bits k m.p m o)) (hk : get (errName k) (envOf L) = none) : ActSim X call fuel h0 L a := by
  rintro h m o fl m' o' ⟨sp, r⟩ - he
  rw [hm] at he
  cases he
  obtain ⟨h', h1, h2⟩ := exec_raise (fuel := fuel) (call := call) (X := X) k r (env := envOf L) rfl rfl hk (eval_p r rfl)
  exact ⟨h', by rw [ha]; exact h1, sp, h2⟩

theorem sim_errPre : ActSim X call fuel h0 L .errPre := sim_raise .pfx rfl (fun _ _ => rfl) rfl
theorem sim_errNid : ActSim X call fuel h0 L .errNid := sim_raise .identifier rfl (fun _ _ => rfl) rfl
theorem sim_errNss : ActSim X call fuel h0 L .errNss := sim_raise .specificString rfl (fun _ _ => rfl) rfl
theorem sim_errUrn : ActSim X call fuel h0 L .errUrn := sim_raise .noUrnWithinID rfl (fun _ _ => rfl) rfl
theorem sim_errScimNid : ActSim X call fuel h0 L .errScimNid := sim_raise .scimNamespace rfl (fun _ _ => rfl) rfl
theorem sim_errScimType : ActSim X call fuel h0 L .errScimType := sim_raise .scimType rfl (fun _ _ => rfl) rfl
theorem sim_errScimName : ActSim X call fuel h0 L .errScimName := sim_raise .scimName rfl (fun _ _ => rfl) rfl
theorem sim_errNss8141 : ActSim X call fuel h0 L .errNss8141 := sim_raise .specificString8141 rfl (fun _ _ => rfl) rfl
theorem sim_errNid8141 : ActSim X call fuel h0 L .errNid8141 := sim_raise .identifier8141 rfl (fun _ _ => rfl) rfl
theorem sim_errMalformedR : ActSim X call fuel h0 L .errMalformedR := sim_raise .malformedRComp8141 rfl (fun _ _ => rfl) rfl
theorem sim_errMalformedQ : ActSim X call fuel h0 L .errMalformedQ := sim_raise .malformedQComp8141 rfl (fun _ _ => rfl) rfl

theorem sim_createScim : ActSim X call fuel h0 L .createScim := by
  rintro h m o fl m' o' ⟨sp, r⟩ - he
  cases he
  refine ⟨_, ?_, _, r.new_scim {}⟩
  have ho : (h ++ [Cell.obj (scimVal {})])[L.ao]? = some (.obj (urnVal sp o)) := by
    rw [List.getElem?_append_left r.ao_lt]; exact r.out
  have hz : fill prog "SCIM" [] = .ok (scimVal {}) := by kernel_rfl
  simp [actStmts, execs, exec, evals, evalElems, eval, store, one, lookup, envOf, get, setField, loadObj, hz, ho, urnVal, set, coerce,
    sigOf]

theorem sim_markScim : ActSim X call fuel h0 L .markScim := by
  rintro h m o fl m' o' ⟨sp, r⟩ - he
  have hs := r.scim
  cases ho : o.scim with
  | none => simp [execActBits, execAct, ho] at he
  | some s =>
      simp [execActBits, execAct, ho] at he
      obtain ⟨rfl, rfl, rfl⟩ := he
      rw [ho] at hs
      obtain ⟨a, rfl, h1, h2⟩ := hs
      refine ⟨_, ?_, some a, r.set_scim ho { s with pos := m.p }⟩
      have ho := r.out
      have hm := r.mach
      simp [actStmts, execs, exec, evals, eval, store, one, lookup, envOf, get, field, setField, loadObj, hm, ho, h1, machVal, urnVal,
        scimVal, set, coerce, sigOf]

theorem sim_setScimName : ActSim X call fuel h0 L .setScimName := by
  rintro h m o fl m' o' ⟨sp, r⟩ - he
  have hs := r.scim
  cases ho : o.scim with
  | none => simp [execActBits, execAct, ho] at he
  | some s =>
      rw [ho] at hs
      obtain ⟨a, rfl, h1, h2⟩ := hs
      cases ht : slice m.data s.pos m.p with
      | error p => simp [execActBits, execAct, ho, ht, bind, Except.bind] at he
      | ok t =>
          simp [execActBits, execAct, ho, ht, bind, Except.bind, pure, Except.pure] at he
          obtain ⟨rfl, rfl, rfl⟩ := he
          refine ⟨_, ?_, some a, r.set_scim ho { s with Name := t }⟩
          obtain ⟨v, h3, h4⟩ := Buf.toStr_slice r.buf ht
          rw [r.len] at h3
          have ho := r.out
          have hm := r.mach
          simp [actStmts, execs, exec, evals, eval, store, one, lookup, envOf, get, field, setField, loadObj, hm, ho, h1, machVal,
            urnVal, scimVal, set, coerce, sigOf, callName, h3, h4]

theorem sim_setScimOther : ActSim X call fuel h0 L .setScimOther := by
  rintro h m o fl m' o' ⟨sp, r⟩ - he
  have hs := r.scim
  cases ho : o.scim with
  | none => simp [execActBits, execAct, ho] at he
  | some s =>
      rw [ho] at hs
      obtain ⟨a, rfl, h1, h2⟩ := hs
      cases ht : slice m.data s.pos m.p with
      | error p => simp [execActBits, execAct, ho, ht, bind, Except.bind] at he
      | ok t =>
          simp [execActBits, execAct, ho, ht, bind, Except.bind, pure, Except.pure] at he
          obtain ⟨rfl, rfl, rfl⟩ := he
          refine ⟨_, ?_, some a, r.set_scim ho { s with Other := t }⟩
          obtain ⟨v, h3, h4⟩ := Buf.toStr_slice r.buf ht
          rw [r.len] at h3
          have ho := r.out
          have hm := r.mach
          simp [actStmts, execs, exec, evals, eval, store, one, lookup, envOf, get, field, setField, loadObj, hm, ho, h1, machVal,
            urnVal, scimVal, set, coerce, sigOf, callName, h3, h4]

theorem sim_informalNidMatch : ActSim X call fuel h0 L .informalNidMatch := by
  rintro h m o fl m' o' ⟨sp, r⟩ - he
  cases he
  refine ⟨_, ?_, sp, r.set_mach (m' := { m with p := wrap X.bits (m.p - 1), err := some ⟨.informalID8141, wrap X.bits (m.p - 1)⟩, cs := Tables.enFail }) rfl⟩
  have hm := r.mach
  have hl := r.am_set
  obtain ⟨t, ht, hs⟩ := err_text .informalID8141
  simp only [errName] at ht
  simp [actStmts, execs, exec, evals, eval, eval_ext, isExt, extCall, store, one, lookup, envOf, get, field, setField, loadObj, hm, hl,
    machVal, set, coerce, sigOf, binVal, common, wrapInt, wrap, ht, hs, errVal, Tables.enFail]

end
end Urn.GoLang
