import Verif.GoCheckFns
import Verif.PropsText
/-!
# Rules to run the checks

`Ev env h e vs h'`: in the program of the package, the expression `e` has the values `vs`, and the memory is `h'` afterwards.
`Ex env h ss vs h'`: the statements `ss` return `vs`.
-/
set_option autoImplicit false
set_option linter.unusedSimpArgs false
namespace Urn.GoLang

def Ev (X : Ext) (env : Env) (h : Heap) (e : Expr) (vs : List Val) (h' : Heap) : Prop :=
  ∃ N, ∀ n, N ≤ n → eval prog X (callN prog X n) e ⟨env, h⟩ = .ok (vs, ⟨env, h'⟩)

def Evs (X : Ext) (env : Env) (h : Heap) (es : Exprs) (vs : List Val) (h' : Heap) : Prop :=
  ∃ N, ∀ n, N ≤ n → evals prog X (callN prog X n) es ⟨env, h⟩ = .ok (vs, ⟨env, h'⟩)

def Ex (X : Ext) (env : Env) (h : Heap) (ss : Stmts) (vs : List Val) (h' : Heap) : Prop :=
  ∃ N, ∀ n, N ≤ n → ∃ env', execs prog X (callN prog X n) n ss ⟨env, h⟩ = .ok (.ret vs, ⟨env', h'⟩)

section
variable {X : Ext} {env : Env} {h h1 h2 h3 : Heap} {a b e : Expr} {es : Exprs} {vs ws : List Val} {v w x y : Val} {f s : String}

theorem Ev.id (hx : lookup prog env s = some v) : Ev X env h (.id s) [v] h :=
  ⟨0, fun n _ => by simp only [eval, hx, Res.some!_some, Res.ok_bind, Res.pure_eq]⟩
theorem Ev.num {k : Nat} : Ev X env h (.num k) [.int "" k] h := ⟨0, fun n _ => by simp only [eval]⟩
theorem Ev.str {k : List Nat} : Ev X env h (.str k) [.str (bytesOf k)] h := ⟨0, fun n _ => by simp only [eval]⟩
theorem Ev.sel (he : Ev X env h e [v] h1) (hf : field h1 v f = .ok w) : Ev X env h (.sel e f) [w] h1 := by
  obtain ⟨N, he⟩ := he
  exact ⟨N, fun n hn => by simp only [eval, he n hn, Res.ok_bind, one, hf, Res.pure_eq]⟩
theorem Ev.slice {t t' : String} {i j : Int} (he : Ev X env h e [v] h1) (ha : Ev X env h1 a [.int t i] h2) (hb : Ev X env h2 b [.int t' j] h3)
    (hs : sliceVal v i j = .ok w) : Ev X env h (.slice e a b) [w] h3 := by
  obtain ⟨N, he⟩ := he
  obtain ⟨N1, ha⟩ := ha
  obtain ⟨N2, hb⟩ := hb
  exact ⟨N + N1 + N2, fun n hn => by simp only [eval, he n (by omega), ha n (by omega), hb n (by omega), Res.ok_bind, one, hs, Res.pure_eq]⟩
theorem Ev.conv {t : Bytes} (he : Ev X env h e [.str t] h1) : Ev X env h (.conv (.slice (.name "byte")) e) [(newBytes h1 t).1] (newBytes h1 t).2 := by
  obtain ⟨N, he⟩ := he
  exact ⟨N, fun n hn => by simp only [eval, he n hn, Res.ok_bind, if_true, Res.pure_eq]⟩
theorem Ev.not {c : Bool} (he : Ev X env h e [.bool c] h1) : Ev X env h (.un .not e) [.bool (!c)] h1 := by
  obtain ⟨N, he⟩ := he
  exact ⟨N, fun n hn => by simp only [eval, he n hn, Res.ok_bind, Res.pure_eq]⟩
theorem Ev.bin {o : BinOp} (ho : o = .eq ∨ o = .ne ∨ o = .add) (ha : Ev X env h a [x] h1) (hb : Ev X env h1 b [y] h2) (hv : binVal X.bits o x y = some v) :
    Ev X env h (.bin o a b) [v] h2 := by
  obtain ⟨N, ha⟩ := ha
  obtain ⟨N1, hb⟩ := hb
  refine ⟨N + N1, fun n hn => ?_⟩
  rcases ho with rfl | rfl | rfl <;>
    simp only [eval, ha n (by omega), hb n (by omega), Res.ok_bind, one, hv, Res.some!_some, Res.pure_eq]
theorem Ev.and_true (ha : Ev X env h a [.bool true] h1) (hb : Ev X env h1 b vs h2) : Ev X env h (.bin .and a b) vs h2 := by
  obtain ⟨N, ha⟩ := ha
  obtain ⟨N1, hb⟩ := hb
  exact ⟨N + N1, fun n hn => by simp only [eval, ha n (by omega), hb n (by omega), Res.ok_bind, one]⟩
theorem Ev.and_false (ha : Ev X env h a [.bool false] h1) : Ev X env h (.bin .and a b) [.bool false] h1 := by
  obtain ⟨N, ha⟩ := ha
  exact ⟨N, fun n hn => by simp only [eval, ha n (by omega), Res.ok_bind, one, Res.pure_eq]⟩
theorem Ev.or_false (ha : Ev X env h a [.bool false] h1) (hb : Ev X env h1 b vs h2) : Ev X env h (.bin .or a b) vs h2 := by
  obtain ⟨N, ha⟩ := ha
  obtain ⟨N1, hb⟩ := hb
  exact ⟨N + N1, fun n hn => by simp only [eval, ha n (by omega), hb n (by omega), Res.ok_bind, one]⟩
theorem Ev.or_true (ha : Ev X env h a [.bool true] h1) : Ev X env h (.bin .or a b) [.bool true] h1 := by
  obtain ⟨N, ha⟩ := ha
  exact ⟨N, fun n hn => by simp only [eval, ha n (by omega), Res.ok_bind, one, Res.pure_eq]⟩

theorem Evs.nil : Evs X env h .nil [] h := ⟨0, fun n _ => by simp only [evals]⟩
theorem Evs.cons (he : Ev X env h e vs h1) (hs : Evs X env h1 es ws h2) : Evs X env h (.cons e es) (vs ++ ws) h2 := by
  obtain ⟨N, he⟩ := he
  obtain ⟨N1, hs⟩ := hs
  exact ⟨N + N1, fun n hn => by simp only [evals, he n (by omega), hs n (by omega), Res.ok_bind, Res.pure_eq]⟩
theorem Evs.one (he : Ev X env h e vs h1) : Evs X env h (.cons e .nil) vs h1 := by
  have := Evs.cons he .nil
  rwa [List.append_nil] at this

/-- Calls of functions of the package. -/
theorem Ev.call (hf : get f env = none) (hb : f ≠ "len" ∧ f ≠ "append" ∧ f ≠ "string") (ha : Evs X env h es vs h1)
    (hd : Does (fun n => runFn prog X n f vs false h1) (ws, h2)) : Ev X env h (.call (.id f) es false) ws h2 := by
  obtain ⟨N, ha⟩ := ha
  obtain ⟨N1, hd⟩ := hd
  refine ⟨N + N1, fun n hn => ?_⟩
  have hd := hd n (by omega)
  simp only [runFn] at hd
  simp only [eval, ha n (by omega), Res.ok_bind, callName, hf, if_neg hb.1, if_neg hb.2.1, if_neg hb.2.2, Res.pure_eq]
  cases hg : findFn prog none f with
  | none => rw [hg] at hd; cases hd
  | some g =>
      rw [hg] at hd
      simp only [Res.some!_some, Res.ok_bind] at hd ⊢
      rw [hd]
      rfl
/-- `scimschema.f(args)` -/
theorem Ev.callSchema (hp : get "scimschema" env = none) (hf : get f env = none) (hb : f ≠ "len" ∧ f ≠ "append" ∧ f ≠ "string") (ha : Evs X env h es vs h1)
    (hd : Does (fun n => runFn prog X n f vs false h1) (ws, h2)) : Ev X env h (.call (.sel (.id "scimschema") f) es false) ws h2 := by
  obtain ⟨N, ha⟩ := ha
  obtain ⟨N1, hd⟩ := hd
  refine ⟨N + N1, fun n hn => ?_⟩
  have hd := hd n (by omega)
  simp only [runFn] at hd
  rw [eval_scimschema hp]
  simp only [ha n (by omega), Res.ok_bind, callName, hf, if_neg hb.1, if_neg hb.2.1, if_neg hb.2.2, Res.pure_eq]
  cases hg : findFn prog none f with
  | none => rw [hg] at hd; cases hd
  | some g =>
      rw [hg] at hd
      simp only [Res.some!_some, Res.ok_bind] at hd ⊢
      rw [hd]
      rfl
/-- `string(e)` -/
theorem Ev.string (hf : get "string" env = none) (he : Ev X env h e [v] h1) (hs : toStr h1 v = .ok w) :
    Ev X env h (.call (.id "string") (.cons e .nil) false) [w] h1 := by
  obtain ⟨N, ha⟩ := Evs.one he
  refine ⟨N, fun n hn => ?_⟩
  simp only [eval, ha n hn, Res.ok_bind, callName, hf]
  simp [hs]
/-- `len(e)` -/
theorem Ev.len {b : Buf} {k : Nat} (hf : get "len" env = none) (he : Ev X env h e [b.val k] h1) (hk : b = .nil → k = 0) :
    Ev X env h (.call (.id "len") (.cons e .nil) false) [.int "int" k] h1 := by
  obtain ⟨N, ha⟩ := Evs.one he
  refine ⟨N, fun n hn => ?_⟩
  simp only [eval, ha n hn, Res.ok_bind, callName, hf]
  cases b with
  | nil => simp [Buf.val, hk rfl]
  | part => simp [Buf.val]
/-- `strings.ToLower(e)` -/
theorem Ev.toLower {t : Bytes} (hf : get "strings" env = none) (he : Ev X env h e [.str t] h1) :
    Ev X env h (.call (.sel (.id "strings") "ToLower") (.cons e .nil) false) [.str (Urn.toLower X.uni t)] h1 := by
  obtain ⟨N, ha⟩ := Evs.one he
  refine ⟨N, fun n hn => ?_⟩
  rw [eval_ext hf (by decide) (by decide)]
  simp [ha n hn, extCall]

/-- What runs a method: `method` and then `callFn`. -/
theorem runMethod_some {n : Nat} {r : List Val × Heap} (hd : runMethod prog X n v f vs h = .ok r) :
    ∃ g w h1, method prog h v f = .ok (g, w, h1) ∧ callFn prog (callN prog X n) g (some w) vs false h1 = .ok r := by
  unfold runMethod at hd
  cases hm : method prog h v f with
  | ok x =>
      obtain ⟨g, w, h1⟩ := x
      rw [hm] at hd
      exact ⟨g, w, h1, rfl, hd⟩
  | panic p => rw [hm] at hd; cases hd
  | stuck => rw [hm] at hd; cases hd
  | more => rw [hm] at hd; cases hd

/-- `p.f()` -/
theorem Ev.meth0 {p : String} (hp : get p env = some v) (hd : Does (fun n => runMethod prog X n v f [] h) (ws, h1)) :
    Ev X env h (.call (.sel (.id p) f) .nil false) ws h1 := by
  obtain ⟨N, hd⟩ := hd
  refine ⟨N, fun n hn => ?_⟩
  obtain ⟨g, w, h0, hm, hc⟩ := runMethod_some (hd n hn)
  rw [eval_method hp]
  simp only [hm, Res.ok_bind, evals, hc]
/-- `p.f(args)` -/
theorem Ev.meth {p t : String} {c : Option Nat} {g : Fn} (hp : get p env = some (.ptr t c)) (hg : findFn prog (some (.ptr (.name t))) f = some g)
    (ha : Evs X env h es vs h1) (hd : Does (fun n => runMethod prog X n (.ptr t c) f vs h1) (ws, h2)) :
    Ev X env h (.call (.sel (.id p) f) es false) ws h2 := by
  obtain ⟨N, ha⟩ := ha
  obtain ⟨N1, hd⟩ := hd
  refine ⟨N + N1, fun n hn => ?_⟩
  obtain ⟨g', w, h0, hm, hc⟩ := runMethod_some (hd n (by omega))
  simp only [method, hg, Res.ok.injEq, Prod.mk.injEq] at hm
  obtain ⟨rfl, rfl, rfl⟩ := hm
  rw [eval_method hp]
  simp only [method, hg, Res.ok_bind, ha n (by omega), hc]
/-- `p.f().g()` -/
theorem Ev.methCall {as : Exprs} {sp : Bool} (he : Ev X env h (.call e as sp) [v] h1) (hd : Does (fun n => runMethod prog X n v f [] h1) (ws, h2)) :
    Ev X env h (.call (.sel (.call e as sp) f) .nil false) ws h2 := by
  obtain ⟨N, he⟩ := he
  obtain ⟨N1, hd⟩ := hd
  refine ⟨N + N1, fun n hn => ?_⟩
  obtain ⟨g, w, h0, hm, hc⟩ := runMethod_some (hd n (by omega))
  rw [eval_call_method]
  simp only [he n (by omega), Res.ok_bind, one, hm, evals, hc]
/-- `p.x.f()` -/
theorem Ev.methSel {s : String} (he : Ev X env h (.sel e s) [v] h1) (hd : Does (fun n => runMethod prog X n v f [] h1) (ws, h2)) :
    Ev X env h (.call (.sel (.sel e s) f) .nil false) ws h2 := by
  obtain ⟨N, he⟩ := he
  obtain ⟨N1, hd⟩ := hd
  refine ⟨N + N1, fun n hn => ?_⟩
  obtain ⟨g, w, h0, hm, hc⟩ := runMethod_some (hd n (by omega))
  rw [eval_sel_method]
  simp only [he n (by omega), Res.ok_bind, one, hm, evals, hc]

variable {ss as bs : Stmts} {r : List Val}

theorem Ex.ret (he : Evs X env h es vs h1) : Ex X env h (.cons (.ret es) ss) vs h1 := by
  obtain ⟨N, he⟩ := he
  exact ⟨N, fun n hn => ⟨env, by simp only [execs, exec, he n hn, Res.ok_bind, Res.pure_eq]⟩⟩
theorem Ex.expr (he : Ev X env h e vs h1) (hr : Ex X env h1 ss r h2) : Ex X env h (.cons (.expr e) ss) r h2 := by
  obtain ⟨N, he⟩ := he
  obtain ⟨N1, hr⟩ := hr
  refine ⟨N + N1, fun n hn => ?_⟩
  obtain ⟨env', hr⟩ := hr n (by omega)
  exact ⟨env', by simp only [execs, exec, he n (by omega), Res.ok_bind, Res.pure_eq, hr]⟩
theorem Ex.define {xs : List String} (he : Ev X env h e vs h1) (hl : xs.length = vs.length)
    (hr : Ex X (xs.zip (vs.map coerceDefault) ++ env) h1 ss r h2) : Ex X env h (.cons (.define xs (.cons e .nil)) ss) r h2 := by
  obtain ⟨N, he⟩ := Evs.one he
  obtain ⟨N1, hr⟩ := hr
  refine ⟨N + N1, fun n hn => ?_⟩
  obtain ⟨env', hr⟩ := hr n (by omega)
  exact ⟨env', by simp only [execs, exec, he n (by omega), Res.ok_bind, Res.pure_eq, hl, if_true, hr]⟩
/-- `b[i] = c` -/
theorem Ex.setIndex {i : Expr} {t : String} {k : Int} {h4 : Heap} (he : Ev X env h e [x] h) (hv : Ev X env h b [v] h) (hi : Ev X env h i [.int t k] h) (hs : setIndex h v k x = .ok h4) (hr : Ex X env h4 ss r h3) :
    Ex X env h (.cons (.assign (.cons (.index b i) .nil) (.cons e .nil)) ss) r h3 := by
  obtain ⟨N, he⟩ := Evs.one he
  obtain ⟨N1, hv⟩ := hv
  obtain ⟨N2, hi⟩ := hi
  obtain ⟨N3, hr⟩ := hr
  refine ⟨N + N1 + N2 + N3, fun n hn => ?_⟩
  obtain ⟨env', hr⟩ := hr n (by omega)
  exact ⟨env', by simp only [execs, exec, he n (by omega), store, hv n (by omega), hi n (by omega), one, hs, Res.ok_bind, Res.pure_eq, hr]⟩
theorem Ex.if_false (hc : Ev X env h e [.bool false] h1) (hr : Ex X env h1 ss r h2) : Ex X env h (.cons (.if_ .nil e as .nil) ss) r h2 := by
  obtain ⟨N, hc⟩ := hc
  obtain ⟨N1, hr⟩ := hr
  refine ⟨N + N1, fun n hn => ?_⟩
  obtain ⟨env', hr⟩ := hr n (by omega)
  refine ⟨env', ?_⟩
  rw [execs_next (st' := ⟨env, h1⟩), hr]
  have := exec_if_res (X := X) (init := .nil) (a := as) (b := .nil) (c := e) (st := ⟨env, h⟩) (st1 := ⟨env, h⟩) (call := callN prog X n) (fuel := n)
    (by simp only [execs]) (hc n (by omega)) rfl rfl (R := .ok (.next, ⟨env, h1⟩)) (by simp [execs])
  simpa [inScope] using this
theorem Ex.if_true (hl : noLabels as = true) (hc : Ev X env h e [.bool true] h1) (hr : Ex X env h1 as r h2) :
    Ex X env h (.cons (.if_ .nil e as bs) ss) r h2 := by
  obtain ⟨N, hc⟩ := hc
  obtain ⟨N1, hr⟩ := hr
  refine ⟨N + N1, fun n hn => ?_⟩
  obtain ⟨env', hr⟩ := hr n (by omega)
  have := exec_if_res (X := X) (init := .nil) (a := as) (b := bs) (c := e) (st := ⟨env, h⟩) (st1 := ⟨env, h⟩) (call := callN prog X n) (fuel := n)
    (by simp only [execs]) (hc n (by omega)) rfl hl hr
  simp only [execs, this, inScope, Res.ok_bind, Res.pure_eq]
  exact ⟨_, rfl⟩
/-- `if c { x += e }` -/
theorem Ex.if_add {p : String} {t t' : Bytes} {env' : Env} (hc : Ev X env h e [.bool true] h1) (hp : get p env = some (.str t))
    (ha : Ev X env h1 a [.str t'] h1) (hs : set p (.str (t ++ t')) env = some env') (hlen : env'.length = env.length) (hr : Ex X env' h1 ss r h2) :
    Ex X env h (.cons (.if_ .nil e (.cons (.add (.id p) a) .nil) .nil) ss) r h2 := by
  have hadd : Ev X env h1 (.bin .add (.id p) a) [.str (t ++ t')] h1 := .bin (by simp) (.id (v := .str t) (by simp only [lookup, hp])) ha rfl
  obtain ⟨N, hc⟩ := hc
  obtain ⟨N1, hr⟩ := hr
  obtain ⟨N2, hadd⟩ := hadd
  refine ⟨N + N1 + N2, fun n hn => ?_⟩
  obtain ⟨env'', hr⟩ := hr n (by omega)
  refine ⟨env'', ?_⟩
  rw [execs_next (st' := ⟨env', h1⟩), hr]
  have := exec_if_res (X := X) (init := .nil) (a := .cons (.add (.id p) a) .nil) (b := .nil) (c := e) (st := ⟨env, h⟩) (st1 := ⟨env, h⟩) (call := callN prog X n) (fuel := n)
    (by simp only [execs]) (hc n (by omega)) rfl rfl (R := .ok (.next, ⟨env', h1⟩)) (by
      rw [if_pos rfl]
      simp only [execs, exec, hadd n (by omega), Res.ok_bind, one, store, hp, Res.some!_some, coerce, hs, Res.pure_eq])
  simpa [inScope, hlen] using this

/-- A check is done. -/
theorem holds_of {f : String} {g : Fn} (hg : findFn tprog none f = some g) (hr : g.recv = none) (ht : g.results = [.name "bool"])
    (hp : bindParams prog false g.params vs = some env) (he : Ex X env h g.body [.bool true] h1) : Holds prog tprog X f vs h := by
  obtain ⟨N, he⟩ := he
  refine ⟨h1, N + 1, fun n hn => ?_⟩
  obtain ⟨n, rfl⟩ : ∃ k, n = k + 1 := ⟨n - 1, by omega⟩
  obtain ⟨env', he⟩ := he n (by omega)
  dsimp only
  simp only [callClient, hg, Res.some!_some, Res.ok_bind, callFn, hp, hr, Res.pure_eq, ht]
  rw [callN_ret he rfl]
  simp [zero_bool, coerce]

end
end Urn.GoLang
