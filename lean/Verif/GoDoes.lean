import Verif.GoAssign
/-!
# Accesses that calls make in any case
-/
set_option autoImplicit false
namespace Urn.GoLang
open Urn.Heap (Mem Got)

section
variable {X : Ext} {M : Mem} {h : Heap} {U S : List Nat} {R : Regs}

theorem log_get {n : Nat} {rs : List Ty} {env : Env} {x t f : String} {a : Nat} (hp : get x env = some (.ptr t (some a))) :
    ⟨false, a, .field f⟩ ∈ (callT prog X (n + 1) rs env (.cons (.ret (.cons (.sel (.id x) f) .nil)) .nil)).log h := by
  rw [callT, jumpsT.eq_def, execsT, execT, evalsT, evalT, evalT]
  simp only [hp, lookup, Res.some!, Io.bind_eq, Io.bind, one, Io.pure_eq, fieldT, loadFieldT]
  rw [Io.log]
  exact List.mem_cons_self

theorem mem_bind {α β : Type} {t : Io α} {f : α → Io β} {x : Access} (hx : x ∈ t.log h) : x ∈ (t.bind f).log h := by
  rw [log_bind]
  exact List.mem_append_left _ hx

/-- A function of the client that calls a method without arguments. -/
theorem log_method {n : Nat} {f m : String} {c g : Fn} {a : Nat} {x : Access} (hc : findFn cprog none f = some c) (hr : c.recv = none)
    (hp : c.params = [⟨"p", .ptr (.name "URN"), false⟩]) (hb : c.body = .cons (.ret (.cons (.call (.sel (.id "p") m) .nil false) .nil)) .nil)
    (hg : findFn prog (some (.ptr (.name "URN"))) m = some g) (hx : x ∈ (callFnT prog (callT prog X n) g (some (.ptr "URN" (some a))) [] false).log h) :
    x ∈ (callClientT prog cprog X (n + 1) f [.ptr "URN" (some a)]).log h := by
  rw [cl_startT (env := [("p", .ptr "URN" (some a))]) hc hr (by rw [hp]; simp [bindParams, zero_urn, coerce]), hb]
  rw [callT, jumpsT.eq_def, execsT, execT, evalsT, evalT.eq_def]
  dsimp only
  have hm := method_urn (p := some a) hg
  simp only [get, reduceCtorEq, false_and, if_false, if_true, lookup, Res.some!, Io.bind_eq, Io.bind, hm, evalsT, Io.pure_eq]
  repeat' first | exact hx | apply mem_bind

theorem log_call {n : Nat} {g : Fn} {x : String} {t : Ty} {v : Val} {y : Access} (hr : g.recv = some ⟨x, t, false⟩) (hp : g.params = [])
    (hy : y ∈ (callT prog X n g.results [(x, v)] g.body).log h) : y ∈ (callFnT prog (callT prog X n) g (some v) [] false).log h := by
  unfold callFnT
  rw [hr, hp]
  exact hy

theorem log_sel {d : CallT} {env : Env} {x t f : String} {a : Nat} (hp : get x env = some (.ptr t (some a))) : ⟨false, a, .field f⟩ ∈ (evalT prog X d (.sel (.id x) f) env).log h := by
  rw [evalT, evalT]
  simp only [hp, lookup, Res.some!, Io.bind_eq, Io.bind, one, Io.pure_eq, fieldT, loadFieldT]
  rw [Io.log]
  exact List.mem_cons_self

theorem log_bin {d : CallT} {env : Env} {o : BinOp} {l r : Expr} {y : Access} (hy : y ∈ (evalT prog X d l env).log h) : y ∈ (evalT prog X d (.bin o l r) env).log h := by
  rw [evalT]
  exact mem_bind hy

theorem log_first {d : CallT} {env : Env} {l : Expr} {r : Exprs} {y : Access} (hy : y ∈ (evalT prog X d l env).log h) : y ∈ (evalsT prog X d (.cons l r) env).log h := by
  rw [evalsT]
  exact mem_bind hy

theorem log_body {n : Nat} {rs : List Ty} {env : Env} {s : Stmt} {ss : Stmts} {y : Access} (hy : y ∈ (execT prog X (callT prog X n) n s env).log h) :
    y ∈ (callT prog X (n + 1) rs env (.cons s ss)).log h := by
  rw [callT, jumpsT.eq_def, execsT]
  exact mem_bind (mem_bind (mem_bind hy))

theorem log_ret {n : Nat} {env : Env} {es : Exprs} {y : Access} (hy : y ∈ (evalsT prog X (callT prog X n) es env).log h) : y ∈ (execT prog X (callT prog X n) n (.ret es) env).log h := by
  rw [execT]
  exact mem_bind hy

theorem log_if {n : Nat} {env : Env} {c : Expr} {a b : Stmts} {y : Access} (hy : y ∈ (evalT prog X (callT prog X n) c env).log h) :
    y ∈ (execT prog X (callT prog X n) n (.if_ .nil c a b) env).log h := by
  rw [execT, execsT]
  refine mem_bind ?_
  show y ∈ ((evalT prog X (callT prog X n) c env).bind _).log h
  exact mem_bind hy

/-- A read after another one. -/
theorem log_next {d : CallT} {env : Env} {x t f : String} {a : Nat} {w : Val} {es : Exprs} {y : Access} (hp : get x env = some (.ptr t (some a)))
    (hf : h.at a (.field f) = some (.obj w))
    (hy : y ∈ (evalsT prog X d es env).log h) : y ∈ (evalsT prog X d (.cons (.sel (.id x) f) es) env).log h := by
  rw [evalsT, evalT, evalT]
  simp only [hp, lookup, Res.some!, Io.bind_eq, Io.bind, one, Io.pure_eq, fieldT, loadFieldT]
  rw [Io.log, hf]
  simp only [Io.bind]
  exact List.mem_cons_of_mem _ (mem_bind hy)

theorem log_isSCIM {n : Nat} {a : Nat} : ⟨false, a, .field "kind"⟩ ∈ (callT prog X (n + 1) isScimFn.results [("u", .ptr "URN" (some a))] isScimFn.body).log h :=
  log_body (log_ret (log_first (log_bin (log_sel rfl))))

theorem log_SCIM {n : Nat} {a : Nat} : ⟨false, a, .field "kind"⟩ ∈ (callT prog X (n + 1) scimFn.results [("u", .ptr "URN" (some a))] scimFn.body).log h :=
  log_body (log_if (log_bin (log_sel rfl)))

theorem log_normalize {n : Nat} {a : Nat} {q tl u} (ha : h[a]? = some (.obj (urnValW q tl u))) {f : String} (hf : f ∈ ["ID", "norm"]) :
    ⟨false, a, .field f⟩ ∈ (callT prog X (n + 1) normalizeFn.results [("u", .ptr "URN" (some a))] normalizeFn.body).log h := by
  have e1 : h.at a (.field "ID") = some (.obj (.str u.ID)) := by simp [Heap.at, ha, Cell.see, urnValW, get]
  unfold normalizeFn
  dsimp only
  refine log_body (log_ret (log_first ?_))
  rw [evalT]
  refine mem_bind ?_
  have e2 : ∀ d : CallT, evalT prog X d (.call (.sel (.id "strings") "ToLower") (.cons (.sel (.id "u") "ID") .nil) false) [("u", .ptr "URN" (some a))] =
      (loadFieldT a "ID").bind fun v => (extCallT X "strings" "ToLower" [v]).bind fun r => .done (.ok (r, [("u", .ptr "URN" (some a))])) := by
    intro d
    rw [evalT.eq_def]
    simp [get, isExt, evalsT, evalT, lookup, Res.some!, one, fieldT, loadFieldT, Io.bind]
    funext c
    cases c <;> rfl
  rw [evalElemsT, evalT]
  simp only [Io.bind_eq, Io.pure_eq, Io.bind, one]
  rw [evalElemsT, e2]
  simp only [Io.bind_eq, Io.pure_eq, Io.bind, one, loadFieldT]
  rw [Io.log, e1]
  simp only [List.mem_cons, List.not_mem_nil, or_false] at hf
  rcases hf with rfl | rfl
  · exact List.mem_cons_self
  · refine List.mem_cons_of_mem _ ?_
    have e3 : extCallT X "strings" "ToLower" [.str u.ID] = .done (.ok [.str (toLower X.uni u.ID)]) := rfl
    simp only [Io.bind, e3]
    refine mem_bind (mem_bind ?_)
    rw [evalElemsT]
    exact mem_bind (log_sel rfl)

/-- `*p = *q` -/
theorem log_copy {n : Nat} {rs : List Ty} {env : Env} {x y t : String} {a b : Nat} {v w : Val} (hp : get x env = some (.ptr t (some a))) (hq : get y env = some (.ptr t (some b)))
    (ha : h[a]? = some (.obj v)) (hb : h[b]? = some (.obj w)) {z : Access} (hz : z ∈ [⟨true, a, .all⟩, ⟨false, b, .all⟩]) :
    z ∈ (callT prog X (n + 1) rs env (.cons (.assign (.cons (.un .deref (.id x)) .nil) (.cons (.un .deref (.id y)) .nil)) .nil)).log h := by
  have ea : h.at a .all = some (.obj v) := by simp [Heap.at, ha, Cell.see]
  have eb : h.at b .all = some (.obj w) := by simp [Heap.at, hb, Cell.see]
  refine log_body ?_
  rw [execT, evalsT, evalT.eq_def]
  dsimp only
  rw [evalT]
  simp only [hq, lookup, Res.some!, Io.bind_eq, Io.bind, one, Io.pure_eq, loadObjT, evalsT]
  rw [Io.log, eb]
  simp only [List.mem_cons, List.not_mem_nil, or_false] at hz
  rcases hz with rfl | rfl
  · refine List.mem_cons_of_mem _ ?_
    simp only [Io.bind, assignT, evalT, hp, lookup, Res.some!, Io.bind_eq, one, Io.pure_eq, List.append_nil, setDerefT, loadObjT, storeT]
    rw [Io.log, ea]
    simp only [Io.bind]
    rw [Io.log]
    exact List.mem_cons_of_mem _ List.mem_cons_self
  · exact List.mem_cons_self

theorem normalize_cell {n a : Nat} {q tl u} (ha : h[a]? = some (.obj (urnValW q tl u))) : callFn prog (callN prog X (n + 1)) normalizeFn (some (.ptr "URN" (some a))) [] false h =
    .ok ([.ptr "URN" (some h.length)], h ++ [.obj (urnValW none .nil (u.normalize X.uni))]) := by
  simp [normalizeFn, callFn, bindParams, callN, execs, exec, evals, eval, evalElems, one, lookup, get, field, loadObj, ha, urnValW, zero_urn, coerce, jumps_ret,
    isExt, extCall, fill_norm, URN.normalize]

/-- The accesses of what comes after a statement. -/
theorem log_then {n : Nat} {env env' : Env} {h' : Heap} {s : Stmt} {ss : Stmts} {y : Access}
    (hs : exec prog X (callN prog X n) n s ⟨env, h⟩ = .ok (.next, ⟨env', h'⟩)) (hy : y ∈ (execsT prog X (callT prog X n) n ss env').log h') :
    y ∈ (execsT prog X (callT prog X n) n (.cons s ss) env).log h := by
  have e := exec_same (P := prog) (X := X) (callN_same prog X n) (n := n) s env h
  unfold Same at e
  rw [hs] at e
  rw [execsT, Io.bind_eq, log_bind]
  refine List.mem_append_right _ ?_
  cases hr : (execT prog X (callT prog X n) n s env).run h with
  | ok z =>
      rw [hr] at e
      obtain ⟨⟨sg, e1⟩, h1⟩ := z
      cases e
      exact hy
  | _ => rw [hr] at e; cases e

theorem log_execs {n : Nat} {env : Env} {s : Stmt} {ss : Stmts} {y : Access} (hy : y ∈ (execT prog X (callT prog X n) n s env).log h) :
    y ∈ (execsT prog X (callT prog X n) n (.cons s ss) env).log h := by
  rw [execsT]
  exact mem_bind hy

theorem log_callT {n : Nat} {rs : List Ty} {env : Env} {ss : Stmts} {y : Access} (hy : y ∈ (execsT prog X (callT prog X n) n ss env).log h) :
    y ∈ (callT prog X (n + 1) rs env ss).log h := by
  rw [callT, jumpsT.eq_def]
  exact mem_bind (mem_bind hy)

theorem log_define {n a : Nat} {x z : String} {q tl u} {env : Env} (hx : get x env = some (.ptr "URN" (some a))) (ha : h[a]? = some (.obj (urnValW q tl u))) {f : String} (hf : f ∈ ["ID", "norm"]) :
    ⟨false, a, .field f⟩ ∈ (execT prog X (callT prog X (n + 1)) (n + 1) (.define [z] (.cons (.call (.sel (.id x) "Normalize") .nil false) .nil)) env).log h := by
  rw [execT]
  refine mem_bind (log_first ?_)
  rw [evalT.eq_def]
  dsimp only
  have hm := method_urn (p := some a) find_normalize
  simp only [hx, reduceCtorEq, false_and, if_false, lookup, Res.some!, Io.bind_eq, Io.bind, hm, evalsT, Io.pure_eq]
  exact mem_bind (log_call rfl rfl (log_normalize ha hf))

theorem log_equal {n a b : Nat} {q tl u q' tl' u'} (ha : h[a]? = some (.obj (urnValW q tl u))) (hb : h[b]? = some (.obj (urnValW q' tl' u'))) {f : String} (hf : f ∈ ["ID", "norm"])
    {c : Nat} (hc : c = a ∨ c = b) : ⟨false, c, .field f⟩ ∈ (callT prog X (n + 2) equalFn.results [("u", .ptr "URN" (some a)), ("x", .ptr "URN" (some b))] equalFn.body).log h := by
  have n1 := normalize_cell (X := X) (n := n) ha
  have s1 : exec prog X (callN prog X (n + 1)) (n + 1) (ifS (.bin .eq (.id "x") (.id "nil")) (.cons (.ret (.cons (.id "false") .nil)) .nil))
      ⟨[("u", .ptr "URN" (some a)), ("x", .ptr "URN" (some b))], h⟩ = .ok (.next, ⟨[("u", .ptr "URN" (some a)), ("x", .ptr "URN" (some b))], h⟩) :=
    exec_ifS_false (by simp [eval, one, lookup, get, binVal, eqVal, c_nil])
  have s2 : exec prog X (callN prog X (n + 1)) (n + 1) (.define ["nu"] (.cons (.call (.sel (.id "u") "Normalize") .nil false) .nil))
      ⟨[("u", .ptr "URN" (some a)), ("x", .ptr "URN" (some b))], h⟩ = .ok (.next, ⟨[("nu", .ptr "URN" (some h.length)),
        ("u", .ptr "URN" (some a)), ("x", .ptr "URN" (some b))], h ++ [.obj (urnValW none .nil (u.normalize X.uni))]⟩) := by
    simp [exec, evals, eval_method, get, method, find_normalize, n1, coerceDefault, coerce]
  refine log_callT (log_then s1 ?_)
  rcases hc with rfl | rfl
  · exact log_execs (log_define rfl ha hf)
  · refine log_then s2 (log_execs (log_define (q := q') (tl := tl') (u := u') rfl ?_ hf))
    rw [List.getElem?_append_left (List.getElem?_eq_some_iff.1 hb).1]
    exact hb

theorem log_string {n a : Nat} : ⟨false, a, .field "ID"⟩ ∈ (callT prog X (n + 1) stringFn.results [("u", .ptr "URN" (some a))] stringFn.body).log h := by
  refine log_callT (log_then (h' := h) (env' := [("res", .str []), ("u", .ptr "URN" (some a))]) ?_ (log_execs (log_if (log_bin (log_bin (log_sel rfl))))))
  simp [exec, zero]

/-- A function of the client that calls a method of a struct: the struct is copied. -/
theorem log_value {n a : Nat} {rs : List Ty} {t m : String} {g : Fn} {xs : List String} {ss : Stmts} (h1 : findFn prog (some (.ptr (.name t))) m = none) (h2 : findFn prog (some (.name t)) m = some g) :
    ⟨false, a, .all⟩ ∈ (callT prog X (n + 1) rs [("p", .ptr t (some a))] (.cons (.define xs (.cons (.call (.sel (.id "p") m) .nil false) .nil)) ss)).log h := by
  refine log_body ?_
  rw [execT]
  refine mem_bind (log_first ?_)
  rw [evalT.eq_def]
  dsimp only
  have hm : methodT prog (.ptr t (some a)) m = (loadObjT a).bind fun w => .done (.ok (g, w)) := by
    unfold methodT
    simp [h1, h2]
  simp only [get, if_true, reduceCtorEq, false_and, if_false, lookup, Res.some!, Io.bind_eq, Io.bind, hm, Io.pure_eq, loadObjT]
  rw [Io.log]
  exact List.mem_cons_self

theorem cell_urn (r : Sim M h U S) {k a : Nat} (ha : U[k]? = some a) : ∃ q tl u, h[a]? = some (.obj (urnValW q tl u)) := by
  have hk : k < M.urns.length := by rw [← r.lenU]; exact (List.getElem?_eq_some_iff.1 ha).1
  obtain ⟨tl, h1, -⟩ := r.urn k a _ ha (List.getElem?_eq_getElem hk)
  exact ⟨_, _, _, h1⟩

theorem cell_scim (r : Sim M h U S) {k a : Nat} (ha : S[k]? = some a) : ∃ s, h[a]? = some (.obj (scimVal s)) := by
  have hk : k < M.scims.length := by rw [← r.lenS]; exact (List.getElem?_eq_some_iff.1 ha).1
  exact ⟨_, r.scim k a _ ha (List.getElem?_eq_getElem hk)⟩

/-- A call makes these accesses. -/
theorem step_does (r : Sim M h U S) (hR : RegsFit R U S) {s : Step} {u : Use} (hu : u ∈ s.does R) {a : Nat} (ha : AddrOf U S a u.place) (n : Nat) :
    ⟨u.write, a, u.part⟩ ∈ (callClientT prog cprog X (n + 3) (s.text (mapR U S R)).1 (s.text (mapR U S R)).2).log h := by
  have hU : ∀ {p fs}, u ∈ Place.reads (Place.urns (R.urn p)) fs → look U (R.urn p) = some a ∧ ∃ f ∈ fs, u = ⟨false, u.place, .field f⟩ ∧ ∃ k, U[k]? = some a := fun {p fs} hu => by
    obtain ⟨q, hq, hu⟩ := List.mem_flatMap.1 hu
    obtain ⟨f, hf, rfl⟩ := List.mem_map.1 hu
    cases hp : R.urn p with
    | none => rw [hp] at hq; cases hq
    | some k => rw [hp] at hq; simp [Place.urns] at hq; subst hq; exact ⟨ha, f, hf, rfl, k, ha⟩
  have hS : ∀ {p fs}, u ∈ Place.reads (Place.scims (R.scim p)) fs → look S (R.scim p) = some a ∧ ∃ f ∈ fs, u = ⟨false, u.place, .field f⟩ ∧ ∃ k, S[k]? = some a := fun {p fs} hu => by
    obtain ⟨q, hq, hu⟩ := List.mem_flatMap.1 hu
    obtain ⟨f, hf, rfl⟩ := List.mem_map.1 hu
    cases hp : R.scim p with
    | none => rw [hp] at hq; cases hq
    | some k => rw [hp] at hq; simp [Place.scims] at hq; subst hq; exact ⟨ha, f, hf, rfl, k, ha⟩
  have st : ∀ {ps f} {l : List Access}, ⟨true, a, u.part⟩ ∈ l → u ∈ Place.sets ps f → ⟨u.write, a, u.part⟩ ∈ l := fun {ps f l} h hu => by
    obtain ⟨q, -, rfl⟩ := List.mem_map.1 hu
    exact h
  cases s <;> first | (cases hu; done) | skip
  case marshalJSON p =>
    obtain ⟨q, hq, rfl⟩ := List.mem_map.1 hu
    cases hp : R.urn p with
    | none => rw [hp] at hq; cases hq
    | some k =>
        rw [hp] at hq
        simp [Place.urns] at hq
        subst hq
        simp only [Step.text, mapR_urn, hp]
        rw [show look U (some k) = some a from ha, cl_startT (g := fn% cfn "marshalJSON") (env := [("p", .ptr "URN" (some a))]) (by kernel_rfl) rfl (by simp [bindParams, zero_urn, coerce])]
        exact log_value find_marshal_ptr find_marshal
  case scimMarshalJSON p =>
    obtain ⟨q, hq, rfl⟩ := List.mem_map.1 hu
    cases hp : R.scim p with
    | none => rw [hp] at hq; cases hq
    | some k =>
        rw [hp] at hq
        simp [Place.scims] at hq
        subst hq
        simp only [Step.text, mapR_scim, hp]
        rw [show look S (some k) = some a from ha, cl_startT (g := fn% cfn "scimMarshalJSON") (env := [("p", .ptr "SCIM" (some a))]) (by kernel_rfl) rfl (by simp [bindParams, zero_scim, coerce])]
        exact log_value find_scimMarshal_ptr find_scimMarshal
  case equal p q =>
    simp only [Step.does] at hu
    split at hu
    · cases hu
    rename_i hn
    simp only [Step.text, mapR_urn]
    cases hp : R.urn p with
    | none => exact absurd (.inl hp) hn
    | some i =>
        cases hq : R.urn q with
        | none => exact absurd (.inr hq) hn
        | some j =>
            obtain ⟨b, hb⟩ : ∃ b, U[i]? = some b := ⟨_, List.getElem?_eq_getElem (hR.urn p i hp)⟩
            obtain ⟨c, hc⟩ : ∃ c, U[j]? = some c := ⟨_, List.getElem?_eq_getElem (hR.urn q j hq)⟩
            have eb : look U (some i) = some b := hb
            have ec : look U (some j) = some c := hc
            obtain ⟨_, _, _, vb⟩ := cell_urn r hb
            obtain ⟨_, _, _, vc⟩ := cell_urn r hc
            rw [hp, hq] at hu
            obtain ⟨f, hf, hu⟩ : ∃ f ∈ ["ID", "norm"], u = ⟨false, .urn i, .field f⟩ ∨ u = ⟨false, .urn j, .field f⟩ := by
              obtain ⟨z, hz, hu⟩ := List.mem_flatMap.1 hu
              obtain ⟨f, hf, rfl⟩ := List.mem_map.1 hu
              replace hz : z ∈ [.urn i, .urn j] := hz
              simp only [List.mem_cons, List.not_mem_nil, or_false] at hz
              rcases hz with rfl | rfl
              · exact ⟨f, hf, .inl rfl⟩
              · exact ⟨f, hf, .inr rfl⟩
            rw [eb, ec, cl_startT (g := fn% cfn "equal") (env := [("p", .ptr "URN" (some b)), ("q", .ptr "URN" (some c))]) (by kernel_rfl) rfl (by simp [bindParams, zero_urn, coerce])]
            refine log_body (log_ret (log_first ?_))
            rw [evalT.eq_def]
            dsimp only
            have hm := method_urn (p := some b) find_equal
            have g1 : get "p" [("p", Val.ptr "URN" (some b)), ("q", .ptr "URN" (some c))] = some (.ptr "URN" (some b)) := rfl
            have g2 : get "q" [("p", Val.ptr "URN" (some b)), ("q", .ptr "URN" (some c))] = some (.ptr "URN" (some c)) := rfl
            simp only [g1, g2, reduceCtorEq, false_and, if_false, lookup, Res.some!, Io.bind_eq, Io.bind, hm, evalsT, evalT, Io.pure_eq, List.append_nil]
            refine mem_bind ?_
            have e : callFnT prog (callT prog X (n + 2)) equalFn (some (.ptr "URN" (some b))) [.ptr "URN" (some c)] false =
                callT prog X (n + 2) equalFn.results [("u", .ptr "URN" (some b)), ("x", .ptr "URN" (some c))] equalFn.body := by
              unfold callFnT
              simp [equalFn, bindParams, zero_urn, coerce, Res.some!, Io.bind]
            show _ ∈ (callFnT prog (callT prog X (n + 2)) equalFn (some (.ptr "URN" (some b))) [.ptr "URN" (some c)] false).log h
            rw [e]
            rcases hu with rfl | rfl
            · exact log_equal vb vc hf (.inl (Option.some.inj (ha.symm.trans hb)))
            · exact log_equal vb vc hf (.inr (Option.some.inj (ha.symm.trans hc)))
  case setID p v => exact st (assign_log (s := .setID p v) rfl hu ha (n + 2)) hu
  case setSS p v => exact st (assign_log (s := .setSS p v) rfl hu ha (n + 2)) hu
  case setType p v => exact st (assign_log (s := .setType p v) rfl hu ha (n + 2)) hu
  case setName p v => exact st (assign_log (s := .setName p v) rfl hu ha (n + 2)) hu
  case setOther p v => exact st (assign_log (s := .setOther p v) rfl hu ha (n + 2)) hu
  case copyURN p q =>
    simp only [Step.does] at hu
    split at hu
    · cases hu
    rename_i hn
    simp only [Step.text, mapR_urn]
    cases hp : R.urn p with
    | none => exact absurd (.inl hp) hn
    | some i =>
        cases hq : R.urn q with
        | none => exact absurd (.inr hq) hn
        | some j =>
            obtain ⟨b, hb⟩ : ∃ b, U[i]? = some b := ⟨_, List.getElem?_eq_getElem (hR.urn p i hp)⟩
            obtain ⟨c, hc⟩ : ∃ c, U[j]? = some c := ⟨_, List.getElem?_eq_getElem (hR.urn q j hq)⟩
            have eb : look U (some i) = some b := hb
            have ec : look U (some j) = some c := hc
            obtain ⟨_, _, _, vb⟩ := cell_urn r hb
            obtain ⟨_, _, _, vc⟩ := cell_urn r hc
            rw [eb, ec, cl_startT (g := fn% cfn "copyURN") (env := [("p", .ptr "URN" (some b)), ("q", .ptr "URN" (some c))]) (by kernel_rfl) rfl (by simp [bindParams, zero_urn, coerce])]
            refine log_copy rfl rfl vb vc ?_
            rw [hp, hq] at hu
            replace hu : u ∈ [⟨true, .urn i, .all⟩, ⟨false, .urn j, .all⟩] := hu
            simp only [List.mem_cons, List.not_mem_nil, or_false] at hu
            rcases hu with rfl | rfl
            · cases (show some b = some a from hb.symm.trans ha); simp
            · cases (show some c = some a from hc.symm.trans ha); simp
  case copySCIM p q =>
    simp only [Step.does] at hu
    split at hu
    · cases hu
    rename_i hn
    simp only [Step.text, mapR_scim]
    cases hp : R.scim p with
    | none => exact absurd (.inl hp) hn
    | some i =>
        cases hq : R.scim q with
        | none => exact absurd (.inr hq) hn
        | some j =>
            obtain ⟨b, hb⟩ : ∃ b, S[i]? = some b := ⟨_, List.getElem?_eq_getElem (hR.scim p i hp)⟩
            obtain ⟨c, hc⟩ : ∃ c, S[j]? = some c := ⟨_, List.getElem?_eq_getElem (hR.scim q j hq)⟩
            have eb : look S (some i) = some b := hb
            have ec : look S (some j) = some c := hc
            obtain ⟨_, vb⟩ := cell_scim r hb
            obtain ⟨_, vc⟩ := cell_scim r hc
            rw [eb, ec, cl_startT (g := fn% cfn "copySCIM") (env := [("p", .ptr "SCIM" (some b)), ("q", .ptr "SCIM" (some c))]) (by kernel_rfl) rfl (by simp [bindParams, zero_scim, coerce])]
            refine log_copy rfl rfl vb vc ?_
            rw [hp, hq] at hu
            replace hu : u ∈ [⟨true, .scim i, .all⟩, ⟨false, .scim j, .all⟩] := hu
            simp only [List.mem_cons, List.not_mem_nil, or_false] at hu
            rcases hu with rfl | rfl
            · cases (show some b = some a from hb.symm.trans ha); simp
            · cases (show some c = some a from hc.symm.trans ha); simp
  case scimFields p =>
    simp only [Step.text, mapR_scim]
    obtain ⟨e1, f, hf, e2, k, hk⟩ := hS hu
    obtain ⟨s, hs⟩ := cell_scim r hk
    rw [e1, e2, cl_startT (g := fn% cfn "scimFields") (env := [("p", .ptr "SCIM" (some a))]) (by kernel_rfl) rfl (by simp [bindParams, zero_scim, coerce])]
    refine log_body (log_ret ?_)
    simp only [List.mem_cons, List.not_mem_nil, or_false] at hf
    rcases hf with rfl | rfl | rfl
    · exact log_first (log_sel rfl)
    · exact log_next (w := .int "Type" s.Typ) rfl (by simp [Heap.at, hs, Cell.see, scimVal, get]) (log_first (log_sel rfl))
    · exact log_next (w := .int "Type" s.Typ) rfl (by simp [Heap.at, hs, Cell.see, scimVal, get])
        (log_next (w := .str s.Name) rfl (by simp [Heap.at, hs, Cell.see, scimVal, get]) (log_first (log_sel rfl)))
  all_goals
    simp only [Step.text, mapR_urn]
    obtain ⟨e1, f, hf, e2, k, hk⟩ := hU hu
    rw [e1, e2]
  case normalize p =>
    obtain ⟨q, tl, v, hv⟩ := cell_urn r hk
    exact log_method (c := fn% cfn "normalize") (by kernel_rfl) rfl rfl rfl find_normalize (log_call rfl rfl (log_normalize hv hf))
  all_goals cases List.mem_singleton.1 hf
  case getID p =>
    rw [cl_startT (g := fn% cfn "getID") (env := [("p", .ptr "URN" (some a))]) (by kernel_rfl) rfl (by simp [bindParams, zero_urn, coerce])]
    exact log_get rfl
  case getSS p =>
    rw [cl_startT (g := fn% cfn "getSS") (env := [("p", .ptr "URN" (some a))]) (by kernel_rfl) rfl (by simp [bindParams, zero_urn, coerce])]
    exact log_get rfl
  case isSCIM p => exact log_method (c := fn% cfn "isSCIM") (by kernel_rfl) rfl rfl rfl find_isScim (log_call rfl rfl log_isSCIM)
  case scimOf p => exact log_method (c := fn% cfn "scimOf") (by kernel_rfl) rfl rfl rfl find_scim (log_call rfl rfl log_SCIM)
  case stringOf p => exact log_method (c := fn% cfn "stringOf") (by kernel_rfl) rfl rfl rfl find_string (log_call rfl rfl log_string)
  case rfc p => exact log_method (c := fn% cfn "rfc") (by kernel_rfl) rfl rfl rfl find_rfc (log_call rfl rfl (log_get rfl))
  case rComponent p => exact log_method (c := fn% cfn "rComponent") (by kernel_rfl) rfl rfl rfl find_r (log_call rfl rfl (log_get rfl))
  case qComponent p => exact log_method (c := fn% cfn "qComponent") (by kernel_rfl) rfl rfl rfl find_q (log_call rfl rfl (log_get rfl))
  case fComponent p => exact log_method (c := fn% cfn "fComponent") (by kernel_rfl) rfl rfl rfl find_f (log_call rfl rfl (log_get rfl))

theorem simple_does (c : List Step) : ∀ {R : Regs} {M : Mem}, (∀ s ∈ c, s.simple = true) → does X c R M = uses X c R M := by
  induction c with
  | nil => intro R M _; rfl
  | cons s c ih =>
      intro R M hs
      have e : s.does R = s.uses R := by
        have := hs s List.mem_cons_self
        cases s <;> first | rfl | cases this
      rw [does, uses, e]
      congr 1
      split
      · exact ih fun s h => hs s (List.mem_cons_of_mem _ h)
      · rfl

theorem does_split {u : Use} (c : List Step) : ∀ {R : Regs} {M : Mem}, u ∈ does X c R M →
    ∃ pre s post gs R1 M1, c = pre ++ s :: post ∧ runModel X pre R M = .ok (gs, R1, M1) ∧ u ∈ s.does R1 := by
  induction c with
  | nil => intro R M hu; cases hu
  | cons s c ih =>
      intro R M hu
      rw [does] at hu
      rcases List.mem_append.1 hu with hu | hu
      · exact ⟨[], s, c, [], R, M, rfl, rfl, hu⟩
      · split at hu
        · rename_i M' g he
          obtain ⟨pre, t, post, gs, R1, M1, rfl, h1, h2⟩ := ih hu
          refine ⟨s :: pre, t, post, g :: gs, R1, M1, rfl, ?_, h2⟩
          rw [runModel, he]
          show (runModel X pre (R.addGot g) M' >>= _) = _
          rw [h1]
          rfl
        · cases hu

/-- Calls that use the same part of memory in any case. -/
theorem does_races (r : Sim M h U S) {cs : List (Regs × List Step)} (hR : ∀ c ∈ cs, RegsFit c.1 U S) (hf : ∀ c ∈ cs, ∀ s ∈ c.2, s.Fits X)
    (hc : Clash (fun c => does X c.2 c.1 M) M cs) : ∃ N, ∀ n, N ≤ n → Races h (cs.map fun c => runTextT prog cprog X n c.2 (c.1.addr (look U) (look S))) := by
  obtain ⟨i, j, c, d, hij, hi, hj, u, hu, v, hv, huv, hin, hm, hw⟩ := hc
  obtain ⟨pre, s, post, gs, R1, M1, e, h1, hu⟩ := does_split _ hu
  obtain ⟨pre', t, post', gs', R2, M2, e', h2, hv⟩ := does_split _ hv
  have hci := List.mem_of_getElem? hi
  have hcj := List.mem_of_getElem? hj
  have g1 := run_good (X := X) pre (fun s hs => hf c hci s (by rw [e]; exact List.mem_append_left _ hs)) r (hR c hci)
  have g2 := run_good (X := X) pre' (fun s hs => hf d hcj s (by rw [e']; exact List.mem_append_left _ hs)) r (hR d hcj)
  rw [h1] at g1
  rw [h2] at g2
  obtain ⟨U1, S1, k1, ⟨N1, hN1⟩, r1, hR1, -, -⟩ := g1
  obtain ⟨U2, S2, k2, ⟨N2, hN2⟩, r2, hR2, -, -⟩ := g2
  obtain ⟨a, ha, hl⟩ : ∃ a, AddrOf U S a u.place ∧ a < h.length := by
    cases e : u.place with
    | urn k =>
        rw [e] at hin
        have hk : k < U.length := by rw [r.lenU]; exact hin
        exact ⟨U[k], List.getElem?_eq_getElem hk, r.ltU (List.getElem_mem hk)⟩
    | scim k =>
        rw [e] at hin
        have hk : k < S.length := by rw [r.lenS]; exact hin
        exact ⟨S[k], List.getElem?_eq_getElem hk, r.ltS (List.getElem_mem hk)⟩
  refine ⟨N1 + N2 + 3, fun n hn => ?_⟩
  obtain ⟨n, rfl⟩ : ∃ m, n = m + 3 := ⟨n - 3, by omega⟩
  have l1 := log_after pre (s := s) (post := post) (tree_ok (hN1 (n + 3) (by omega))) _ (step_does (X := X) r1 hR1 hu (ha.app U1 S1) n)
  have l2 := log_after pre' (s := t) (post := post') (tree_ok (hN2 (n + 3) (by omega))) _ (step_does (X := X) r2 hR2 hv ((huv ▸ ha : AddrOf U S a v.place).app U2 S2) n)
  rw [← e] at l1
  rw [← e'] at l2
  exact races hij (by rw [List.getElem?_map, hi]; rfl) (by rw [List.getElem?_map, hj]; rfl) l1 l2 hl ⟨rfl, hm, hw⟩

/-- Goroutines that use nothing in common do not race. -/
theorem uses_quiet (r : Sim M h U S) {cs : List (Regs × List Step)} (hR : ∀ c ∈ cs, RegsFit c.1 U S) (hf : ∀ c ∈ cs, ∀ s ∈ c.2, s.Fits X)
    (hc : ¬ Clash (fun c => uses X c.2 c.1 M) M cs) (n : Nat) : ¬ Races h (cs.map fun c => runTextT prog cprog X n c.2 (c.1.addr (look U) (look S))) := by
  have hn := noConflict_uses r hR hf (fun i j c d hij hi hj u hu v hv huv hin hm => by
    cases ew : u.write with
    | true => exact absurd ⟨i, j, c, d, hij, hi, hj, u, hu, v, hv, huv, hin, hm, .inl ew⟩ hc
    | false =>
        cases ev : v.write with
        | true => exact absurd ⟨i, j, c, d, hij, hi, hj, u, hu, v, hv, huv, hin, hm, .inr ev⟩ hc
        | false => exact ⟨rfl, rfl⟩) n
  rintro ⟨sched, hs⟩
  rw [(undisturbed hn).noRace sched] at hs
  cases hs

end
end Urn.GoLang
