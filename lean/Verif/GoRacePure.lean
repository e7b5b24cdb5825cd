import Verif.GoRaceMask
/-!
# Functions that do not write to memory

A check of the text of functions: they assign only to variables, and they call only functions that have been checked.  Such a
function does not write to memory, whatever is in it and whatever others do to it.
-/
set_option autoImplicit false
namespace Urn.GoLang

/-- It does not write, and what it returns has the property. -/
def Io.Silent {α : Type} (Q : α → Prop) : Io α → Prop
  | done (.ok a) => Q a
  | done _ => True
  | read _ _ k => ∀ c, Silent Q (k c)
  | write _ _ _ => False
  | alloc _ k => ∀ a, Silent Q (k a)

theorem Io.Silent.bind {α β : Type} {Q : α → Prop} {Q' : β → Prop} {t : Io α} {f : α → Io β} (ht : t.Silent Q) (hf : ∀ a, Q a → (f a).Silent Q') :
    (t.bind f).Silent Q' := by
  induction t with
  | done r => cases r with
    | ok a => exact hf a ht
    | _ => trivial
  | read a p k ih => exact fun c => ih c (ht c)
  | write a u k ih => exact ht.elim
  | alloc c k ih => exact fun a => ih a (ht a)

theorem Io.Silent.mono {α : Type} {Q Q' : α → Prop} {t : Io α} (ht : t.Silent Q) (h : ∀ a, Q a → Q' a) : t.Silent Q' := by
  induction t with
  | done r => cases r with
    | ok a => exact h a ht
    | _ => trivial
  | read a p k ih => exact fun c => ih c (ht c)
  | write a u k ih => exact ht.elim
  | alloc c k ih => exact fun a => ih a (ht a)

/-- So it does not write when it is alone. -/
theorem Io.Silent.log {α : Type} {Q : α → Prop} {t : Io α} : ∀ {h : Heap}, t.Silent Q → ∀ x, x ∈ t.log h → x.write = false := by
  induction t with
  | done r => intro h _ x hx; cases hx
  | read a p k ih =>
      intro h ht x hx
      rw [Io.log] at hx
      rcases List.mem_cons.1 hx with rfl | hx
      · rfl
      · split at hx
        · exact ih _ (ht _) x hx
        · cases hx
  | write a u k ih => intro h ht; exact ht.elim
  | alloc c k ih => intro h ht x hx; exact ih _ (ht _) x hx

abbrev Any {α : Type} : α → Prop := fun _ => True

theorem silent_done {α : Type} {r : Res α} : (Io.done r).Silent Any := by cases r <;> trivial

/-! ## The check -/

section
variable (N : List String)

mutual
def pureE : Expr → Bool
  | .id _ | .num _ | .str _ | .func _ _ _ => true
  | .sel e _ => pureE e
  | .index e i => pureE e && pureE i
  | .slice e i j => pureE e && pureE i && pureE j
  | .call (.id f) args _ => N.contains f && pureEs args
  | .call (.sel (.id p) f) args _ => (N.contains f || N.contains p && isExt p) && pureEs args
  | .call (.sel e f) args _ => N.contains f && pureE e && pureEs args
  | .call _ _ _ => true
  | .un .addr (.lit _ es) => pureL es
  | .un _ e => pureE e
  | .bin _ a b => pureE a && pureE b
  | .lit _ es => pureL es
  | .conv _ e => pureE e
def pureEs : Exprs → Bool
  | .nil => true
  | .cons e es => pureE e && pureEs es
def pureL : Elems → Bool
  | .nil => true
  | .cons _ e es => pureE e && pureL es
end

mutual
def pureS : Stmt → Bool
  | .expr e => pureE N e
  | .assign (.cons (.id _) .nil) e => pureEs N e
  | .assign _ _ => false
  | .define xs e => xs.all (fun x => !N.contains x) && pureEs N e
  | .add (.id _) e => pureE N e
  | .add _ _ => false
  | .inc (.id _) => true
  | .inc _ => false
  | .dec (.id _) => true
  | .dec _ => false
  | .var x _ => !N.contains x
  | .ret es => pureEs N es
  | .if_ init c a b => pureB init && pureE N c && pureB a && pureB b
  | .switch e cs => pureE N e && pureC cs
  | .cond cs => pureC cs
  | .range x e body => !N.contains x && pureE N e && pureB body
  | .goto _ | .label _ => true
  | .block b => pureB b
def pureB : Stmts → Bool
  | .nil => true
  | .cons s ss => pureS s && pureB ss
def pureC : Cases → Bool
  | .nil => true
  | .default b cs => pureB b && pureC cs
  | .case e b cs => pureE N e && pureB b && pureC cs
end

def pureFn (g : Fn) : Bool :=
  g.params.all (fun p => !N.contains p.name) && g.recv.all (fun p => !N.contains p.name) && pureB N g.body
end

/-! ## Variables -/

section
variable {N : List String}

/-- No variable has the name of a function. -/
def Free (N : List String) (env : Env) : Prop := ∀ f, N.contains f = true → get f env = none

theorem Free.nil : Free N [] := fun _ _ => rfl

theorem Free.cons {x : String} {v : Val} {env : Env} (hx : N.contains x = false) (he : Free N env) : Free N ((x, v) :: env) := by
  intro f hf
  rw [get, if_neg (fun e => by subst e; rw [hx] at hf; cases hf)]
  exact he f hf

theorem Free.append : ∀ {e env : Env}, Free N e → Free N env → Free N (e ++ env)
  | [], env, _, h => h
  | (x, v) :: e, env, he, h => by
      have hx : N.contains x = false := by
        cases hc : N.contains x with
        | false => rfl
        | true => have := he x hc; rw [get, if_pos rfl] at this; cases this
      have h' : Free N e := fun f hf => by
        have := he f hf
        rw [get] at this
        split at this
        · cases this
        · exact this
      exact Free.cons hx (h'.append h)

theorem Free.drop : ∀ {env : Env} (n : Nat), Free N env → Free N (env.drop n)
  | env, 0, h => h
  | [], n + 1, h => h
  | (x, v) :: env, n + 1, h => by
      refine Free.drop n fun f hf => ?_
      have := h f hf
      rw [get] at this
      split at this
      · cases this
      · exact this

theorem get_set_none {α : Type} {f x : String} {v : α} : ∀ {env env' : List (String × α)}, set x v env = some env' → get f env = none → get f env' = none
  | [], env', h, _ => by cases h
  | (y, w) :: env, env', h, hf => by
      rw [set] at h
      rw [get] at hf
      split at hf
      · cases hf
      · rename_i hne
        split at h
        · cases h; rw [get, if_neg hne]; exact hf
        · cases hs : set x v env with
          | none => rw [hs] at h; cases h
          | some r =>
              rw [hs] at h
              cases h
              rw [get, if_neg hne]
              exact get_set_none hs hf

theorem Free.set {x : String} {v : Val} {env env' : Env} (hs : set x v env = some env') (he : Free N env) : Free N env' :=
  fun f hf => get_set_none hs (he f hf)

theorem Free.zip : ∀ {xs : List String} {vs : List Val}, xs.all (fun x => !N.contains x) = true → Free N (xs.zip vs)
  | [], vs, _ => Free.nil
  | x :: xs, [], _ => Free.nil
  | x :: xs, v :: vs, h => by
      rw [List.all_cons, Bool.and_eq_true] at h
      exact Free.cons (by simpa using h.1) (Free.zip h.2)

theorem Free.params {P : Prog} {s : Bool} : ∀ {ps : List Param} {vs : List Val} {env : Env}, ps.all (fun p => !N.contains p.name) = true →
    bindParams P s ps vs = some env → Free N env
  | [], [], env, _, h => by cases h; exact Free.nil
  | [], _ :: _, env, _, h => by simp [bindParams] at h
  | [p], vs, env, hp, h => by
      rw [List.all_cons, Bool.and_eq_true] at hp
      have hx : N.contains p.name = false := by simpa using hp.1
      rw [bindParams.eq_def] at h
      dsimp only at h
      split at h
      · split at h
        · split at h
          · cases h; exact Free.cons hx Free.nil
          · cases h
        · cases h; exact Free.cons hx Free.nil
      · split at h
        · cases h; exact Free.cons hx Free.nil
        · cases h
  | p :: q :: ps, [], env, hp, h => by simp [bindParams] at h
  | p :: q :: ps, v :: vs, env, hp, h => by
      rw [List.all_cons, Bool.and_eq_true] at hp
      have hx : N.contains p.name = false := by simpa using hp.1
      rw [bindParams] at h
      · split at h
        · cases h
        · cases hb : bindParams P s (q :: ps) vs with
          | none => rw [hb] at h; cases h
          | some r => rw [hb] at h; cases h; exact Free.cons hx (Free.params hp.2 hb)
      all_goals simp
end

/-! ## Checked functions do not write -/

theorem loadObjT_silent (a : Nat) : (loadObjT a).Silent Any := fun c => by cases c <;> trivial
theorem loadBytesT_silent (a i n : Nat) : (loadBytesT a i n).Silent Any := fun c => by cases c <;> trivial
theorem newT_silent (c : Cell) : (newT c).Silent Any := fun _ => trivial

theorem fieldT_silent (v : Val) (f : String) : (fieldT v f).Silent Any := by
  cases v with
  | ptr t a =>
      cases a with
      | none => trivial
      | some a => exact fun c => by cases c <;> trivial
  | struct t fs => exact silent_done
  | _ => trivial

theorem indexValT_silent (v : Val) (i : Int) : (indexValT v i).Silent Any := by
  cases v with
  | bytes a off len cap =>
      unfold indexValT
      dsimp only
      split
      · refine (loadBytesT_silent a _ _).bind fun b _ => ?_
        split <;> trivial
      · trivial
  | _ => exact silent_done

theorem toStrT_silent (v : Val) : (toStrT v).Silent Any := by
  cases v with
  | bytes a off len cap => exact (loadBytesT_silent a _ _).bind fun b _ => trivial
  | _ => exact silent_done

theorem newBytesT_silent (b : Bytes) : (newBytesT b).Silent Any := (newT_silent _).bind fun _ _ => trivial

theorem extCallT_silent (X : Ext) (p f : String) (vs : List Val) : (extCallT X p f vs).Silent Any := by
  unfold extCallT
  split
  · split
    · exact silent_done.bind fun _ _ => trivial
    · trivial
  · split
    · split
      · exact silent_done.bind fun _ _ => trivial
      · trivial
    · split
      · split <;> trivial
      · split
        · split
          · exact (newBytesT_silent _).bind fun _ _ => trivial
          · trivial
        · trivial

section
variable {N : List String} {P : Prog} (hP : ∀ g ∈ P.funcs, N.contains g.name = true → pureFn N g = true)

theorem findFn_mem {r : Option Ty} {f : String} {g : Fn} (hg : findFn P r f = some g) : g ∈ P.funcs ∧ g.name = f := by
  unfold findFn at hg
  refine ⟨List.mem_of_find?_eq_some hg, ?_⟩
  have := List.find?_some hg
  simp only [Bool.and_eq_true, beq_iff_eq] at this
  exact this.1

include hP in
theorem findFn_pure {r : Option Ty} {f : String} {g : Fn} (hf : N.contains f = true) (hg : findFn P r f = some g) : pureFn N g = true := by
  obtain ⟨h1, h2⟩ := findFn_mem hg
  exact hP g h1 (by rw [h2]; exact hf)

include hP in
theorem methodT_silent (v : Val) {f : String} (hf : N.contains f = true) : (methodT P v f).Silent fun p => pureFn N p.1 = true := by
  cases v with
  | int t n =>
      unfold methodT
      dsimp only
      cases hg : findFn P (some (.name t)) f with
      | none => trivial
      | some g => exact findFn_pure hP hf hg
  | ptr t a =>
      unfold methodT
      dsimp only
      cases hg : findFn P (some (.ptr (.name t))) f with
      | some g => exact findFn_pure hP hf hg
      | none =>
          cases hg : findFn P (some (.name t)) f with
          | none => trivial
          | some g =>
              cases a with
              | none => trivial
              | some a => exact (loadObjT_silent a).bind fun _ _ => findFn_pure hP hf hg
  | struct t fs =>
      unfold methodT
      dsimp only
      cases hg : findFn P (some (.name t)) f with
      | some g => exact findFn_pure hP hf hg
      | none =>
          cases hg : findFn P (some (.ptr (.name t))) f with
          | some g => exact (newT_silent _).bind fun _ _ => findFn_pure hP hf hg
          | none =>
              dsimp only
              split
              · split
                · rename_i e s a _
                  cases hg : findFn P (some (.ptr (.name s))) f with
                  | some g => exact findFn_pure hP hf hg
                  | none => trivial
                · trivial
              · trivial
  | _ => trivial

variable {X : Ext} {d : CallT} (hd : ∀ rs env b, pureB N b = true → Free N env → (d rs env b).Silent Any)

include hd in
theorem callFnT_silent {g : Fn} (hg : pureFn N g = true) (recv : Option Val) (vs : List Val) (s : Bool) : (callFnT P d g recv vs s).Silent Any := by
  unfold pureFn at hg
  rw [Bool.and_eq_true, Bool.and_eq_true] at hg
  obtain ⟨⟨h1, h2⟩, h3⟩ := hg
  unfold callFnT
  refine Io.Silent.bind (Q := Free N) ?_ fun env he => ?_
  · cases hb : bindParams P s g.params vs with
    | none => trivial
    | some env => exact Free.params h1 hb
  · dsimp only
    cases hr : g.recv with
    | none =>
        cases recv with
        | none => exact hd _ _ _ h3 he
        | some v => trivial
    | some p =>
        rw [hr] at h2
        cases recv with
        | none => trivial
        | some v => exact hd _ _ _ h3 (Free.cons (by simpa using h2) he)

include hP hd in
theorem callNameT_silent {f : String} (hf : N.contains f = true) (vs : List Val) (s : Bool) {env : Env} (he : Free N env) :
    (callNameT P d f vs s env).Silent fun p => Free N p.2 := by
  unfold callNameT
  rw [he f hf]
  dsimp only
  split
  · split <;> first | exact he | trivial
  · split
    · split <;> first | exact he | trivial
    · split
      · split
        · exact (toStrT_silent _).bind fun _ _ => he
        · trivial
      · refine Io.Silent.bind (Q := fun g => pureFn N g = true) ?_ fun g hg => (callFnT_silent hd hg none vs s).bind fun _ _ => he
        cases hg : findFn P none f with
        | none => trivial
        | some g => exact findFn_pure hP hf hg

include hP hd
mutual
theorem evalT_silent : ∀ (e : Expr) (env : Env), pureE N e = true → Free N env → (evalT P X d e env).Silent fun p => Free N p.2
  | .id x, env, _, he => by rw [evalT]; exact silent_done.bind fun _ _ => he
  | .num n, env, _, he => by rw [evalT]; exact he
  | .str b, env, _, he => by rw [evalT]; exact he
  | .sel e f, env, h, he => by
      rw [pureE] at h
      rw [evalT]
      exact (evalT_silent e env h he).bind fun p hp => silent_done.bind fun _ _ => (fieldT_silent _ _).bind fun _ _ => hp
  | .index e i, env, h, he => by
      rw [pureE, Bool.and_eq_true] at h
      rw [evalT]
      refine (evalT_silent e env h.1 he).bind fun p hp => silent_done.bind fun _ _ => (evalT_silent i _ h.2 hp).bind fun q hq => ?_
      dsimp only
      split
      · exact (indexValT_silent _ _).bind fun _ _ => hq
      · trivial
  | .slice e i j, env, h, he => by
      rw [pureE, Bool.and_eq_true, Bool.and_eq_true] at h
      rw [evalT]
      refine (evalT_silent e env h.1.1 he).bind fun p hp => silent_done.bind fun _ _ => (evalT_silent i _ h.1.2 hp).bind fun q hq =>
        (evalT_silent j _ h.2 hq).bind fun r hr => ?_
      dsimp only
      split
      · exact silent_done.bind fun _ _ => hr
      · trivial
  | .call e args s, env, h, he => by
      cases e with
      | id f =>
          rw [pureE, Bool.and_eq_true] at h
          rw [evalT]
          exact (evalsT_silent args env h.2 he).bind fun p hp => callNameT_silent hP hd h.1 _ _ hp
      | sel e f =>
          cases e with
          | id p =>
              rw [pureE, Bool.and_eq_true, Bool.or_eq_true, Bool.and_eq_true] at h
              obtain ⟨h1, h2⟩ := h
              rw [evalT.eq_def]
              dsimp only
              split
              · split
                · rcases args with _ | ⟨b, _ | ⟨e2, r⟩⟩
                  · trivial
                  · trivial
                  · cases e2 with
                    | un op e3 =>
                        cases op with
                        | addr =>
                            cases e3 with
                            | id x =>
                                cases r with
                                | nil =>
                                    rw [pureEs, Bool.and_eq_true] at h2
                                    refine (evalT_silent b env h2.1 he).bind fun p hp => silent_done.bind fun _ _ => (toStrT_silent _).bind fun w _ => ?_
                                    cases w with
                                    | str b =>
                                        dsimp only
                                        cases X.json.unmarshal b with
                                        | none => exact hp
                                        | some s =>
                                            refine Io.Silent.bind (Q := Free N) ?_ fun _ h => h
                                            cases hs : set x (.str s) p.2 with
                                            | none => trivial
                                            | some e => exact hp.set hs
                                    | _ => trivial
                                | cons _ _ => trivial
                            | _ => trivial
                        | _ => trivial
                    | _ => trivial
                · exact (evalsT_silent args env h2 he).bind fun p hp => (extCallT_silent _ _ _ _).bind fun _ _ => hp
              · rename_i hx
                have hf : N.contains f = true := by
                  rcases h1 with h1 | h1
                  · exact h1
                  · exact absurd ⟨he p h1.1, h1.2⟩ hx
                split
                · exact (evalsT_silent args env h2 he).bind fun p hp => callNameT_silent hP hd hf _ _ hp
                · exact silent_done.bind fun v _ => (methodT_silent hP v hf).bind fun q hq => (evalsT_silent args env h2 he).bind fun p hp =>
                    (callFnT_silent hd hq _ _ _).bind fun _ _ => hp
          | _ =>
              rw [pureE.eq_def] at h
              rw [evalT.eq_def]
              dsimp only at h ⊢
              rw [Bool.and_eq_true, Bool.and_eq_true] at h
              exact (evalT_silent _ env h.1.2 he).bind fun p hp => silent_done.bind fun v _ => (methodT_silent hP v h.1.1).bind fun q hq =>
                (evalsT_silent args _ h.2 hp).bind fun p hp => (callFnT_silent hd hq _ _ _).bind fun _ _ => hp
      | _ => rw [evalT.eq_def]; trivial
  | .un .not e, env, h, he => by
      rw [pureE.eq_def] at h
      rw [evalT]
      refine (evalT_silent e env h he).bind fun p hp => ?_
      split
      · exact hp
      · trivial
  | .un .deref e, env, h, he => by
      rw [pureE.eq_def] at h
      rw [evalT]
      refine (evalT_silent e env h he).bind fun p hp => ?_
      split
      · trivial
      · exact (loadObjT_silent _).bind fun _ _ => hp
      · trivial
  | .un .addr e, env, h, he => by
      cases e with
      | lit t es =>
          rw [pureE] at h
          cases t with
          | name t =>
              rw [evalT]
              exact (evalElemsT_silent es env h he).bind fun p hp => silent_done.bind fun _ _ => (newT_silent _).bind fun _ _ => hp
          | _ => rw [evalT.eq_def]; trivial
      | _ => rw [evalT.eq_def]; trivial
  | .bin o a b, env, h, he => by
      rw [pureE, Bool.and_eq_true] at h
      rw [evalT]
      refine (evalT_silent a env h.1 he).bind fun p hp => silent_done.bind fun v _ => ?_
      split
      · exact hp
      · exact evalT_silent b _ h.2 hp
      · exact hp
      · exact evalT_silent b _ h.2 hp
      · exact (evalT_silent b _ h.2 hp).bind fun q hq => silent_done.bind fun _ _ => silent_done.bind fun _ _ => hq
  | .lit t es, env, h, he => by
      rw [pureE] at h
      cases t with
      | name t => rw [evalT]; exact (evalElemsT_silent es env h he).bind fun p hp => silent_done.bind fun _ _ => hp
      | slice t => rw [evalT]; exact (evalElemsT_silent es env h he).bind fun p hp => hp
      | _ => rw [evalT.eq_def]; trivial
  | .conv t e, env, h, he => by
      rw [pureE] at h
      rw [evalT]
      refine (evalT_silent e env h he).bind fun p hp => ?_
      split
      · split
        · exact (newBytesT_silent _).bind fun _ _ => hp
        · trivial
      · trivial
  | .func ps rs body, env, h, he => by rw [evalT]; exact he
theorem evalsT_silent : ∀ (es : Exprs) (env : Env), pureEs N es = true → Free N env → (evalsT P X d es env).Silent fun p => Free N p.2
  | .nil, env, _, he => by rw [evalsT]; exact he
  | .cons e es, env, h, he => by
      rw [pureEs, Bool.and_eq_true] at h
      rw [evalsT]
      exact (evalT_silent e env h.1 he).bind fun p hp => (evalsT_silent es _ h.2 hp).bind fun q hq => hq
theorem evalElemsT_silent : ∀ (es : Elems) (env : Env), pureL N es = true → Free N env → (evalElemsT P X d es env).Silent fun p => Free N p.2
  | .nil, env, _, he => by rw [evalElemsT]; exact he
  | .cons k e es, env, h, he => by
      rw [pureL, Bool.and_eq_true] at h
      rw [evalElemsT]
      exact (evalT_silent e env h.1 he).bind fun p hp => silent_done.bind fun _ _ => (evalElemsT_silent es _ h.2 hp).bind fun q hq => hq
end

abbrev SilentS (N : List String) (t : Io (Sig × Env)) : Prop := t.Silent fun p => Free N p.2

omit hP hd in
theorem inScopeT_silent {n : Nat} {t : Io (Sig × Env)} (ht : SilentS N t) : SilentS N (inScopeT n t) :=
  ht.bind fun _ hp => Free.drop _ hp

omit hP hd in
theorem jumpsT_silent {g : String → Env → Option (Io (Sig × Env))} (hg : ∀ l env t, Free N env → g l env = some t → SilentS N t) :
    ∀ (n : Nat) (t : Io (Sig × Env)), SilentS N t → SilentS N (jumpsT g n t)
  | n, t, ht => by
      rw [jumpsT]
      refine ht.bind fun p hp => ?_
      obtain ⟨s, env⟩ := p
      cases s with
      | goto l =>
          dsimp only
          cases he : g l env with
          | none => exact hp
          | some r =>
              cases n with
              | zero => trivial
              | succ n => exact jumpsT_silent hg n r (hg l env r hp he)
      | next => exact hp
      | ret vs => exact hp

omit hP hd in
theorem rangeLoopT_silent {g : Val → Env → Io (Sig × Env)} (hg : ∀ v env, Free N env → SilentS N (g v env)) :
    ∀ (vs : List Val) (env : Env), Free N env → SilentS N (rangeLoopT g vs env)
  | [], env, he => he
  | v :: vs, env, he => by
      rw [rangeLoopT]
      refine (hg v env he).bind fun p hp => ?_
      obtain ⟨s, env⟩ := p
      cases s with
      | next => exact rangeLoopT_silent hg vs _ hp
      | _ => exact hp

omit hP hd in
theorem assignT_silent (x : String) (v : Val) (env : Env) (he : Free N env) : (assignT P X d (.id x) v env).Silent (Free N) := by
  unfold assignT
  refine silent_done.bind fun old _ => ?_
  cases hs : set x (coerce old v) env with
  | none => trivial
  | some e => exact he.set hs

mutual
theorem execT_silent {n : Nat} : ∀ (s : Stmt) (env : Env), pureS N s = true → Free N env → SilentS N (execT P X d n s env)
  | .expr e, env, h, he => by rw [pureS] at h; rw [execT]; exact (evalT_silent hP hd e env h he).bind fun _ hp => hp
  | .assign l e, env, h, he => by
      rcases l with _ | ⟨l, _ | ⟨m, r⟩⟩
      · rw [pureS.eq_def] at h; cases h
      · cases l with
        | id x =>
            rw [pureS] at h
            rw [execT]
            exact (evalsT_silent hP hd _ env h he).bind fun p hp => silent_done.bind fun v _ => (assignT_silent x v _ hp).bind fun _ he => he
        | _ => rw [pureS.eq_def] at h; cases h
      · rw [pureS.eq_def] at h; cases l <;> cases h
  | .define xs e, env, h, he => by
      rw [pureS, Bool.and_eq_true] at h
      rw [execT]
      refine (evalsT_silent hP hd e env h.2 he).bind fun p hp => ?_
      dsimp only
      split
      · exact Free.append (Free.zip h.1) hp
      · trivial
  | .add l e, env, h, he => by
      cases l with
      | id x =>
          rw [pureS] at h
          rw [execT]
          exact (evalT_silent hP hd (.bin .add (.id x) e) env (by rw [pureE, pureE]; exact h) he).bind fun p hp => silent_done.bind fun v _ =>
            (assignT_silent _ v _ hp).bind fun _ he => he
      | _ => rw [pureS.eq_def] at h; cases h
  | .inc l, env, h, he => by
      cases l with
      | id x =>
          rw [execT]
          exact (evalT_silent hP hd (.bin .add (.id x) (.num 1)) env rfl he).bind fun p hp => silent_done.bind fun v _ =>
            (assignT_silent _ v _ hp).bind fun _ he => he
      | _ => rw [pureS.eq_def] at h; cases h
  | .dec l, env, h, he => by
      cases l with
      | id x =>
          rw [execT]
          exact (evalT_silent hP hd (.bin .sub (.id x) (.num 1)) env rfl he).bind fun p hp => silent_done.bind fun v _ =>
            (assignT_silent _ v _ hp).bind fun _ he => he
      | _ => rw [pureS.eq_def] at h; cases h
  | .var x t, env, h, he => by rw [pureS] at h; rw [execT]; exact Free.cons (by simpa using h) he
  | .ret es, env, h, he => by rw [pureS] at h; rw [execT]; exact (evalsT_silent hP hd es env h he).bind fun _ hp => hp
  | .if_ init e a b, env, h, he => by
      rw [pureS, Bool.and_eq_true, Bool.and_eq_true, Bool.and_eq_true] at h
      obtain ⟨⟨⟨h1, h2⟩, h3⟩, h4⟩ := h
      rw [execT]
      refine inScopeT_silent ((execsT_silent init env h1 he).bind fun p hp => ?_)
      obtain ⟨s, env⟩ := p
      cases s with
      | next =>
          refine (evalT_silent hP hd _ _ h2 hp).bind fun q hq => ?_
          obtain ⟨v, env⟩ := q
          rcases v with _ | ⟨v, _ | ⟨y, r⟩⟩
          · trivial
          · cases v with
            | bool q =>
                cases q with
                | true => exact inScopeT_silent (jumpsT_silent (entryT_silent a h3) _ _ (execsT_silent a _ h3 hq))
                | false => exact inScopeT_silent (jumpsT_silent (entryT_silent b h4) _ _ (execsT_silent b _ h4 hq))
            | _ => trivial
          · cases v with
            | bool q => cases q <;> trivial
            | _ => trivial
      | _ => trivial
  | .switch e cs, env, h, he => by
      rw [pureS, Bool.and_eq_true] at h
      rw [execT]
      refine (evalT_silent hP hd _ _ h.1 he).bind fun p hp => silent_done.bind fun v _ => (execCasesT_silent cs v _ h.2 hp).bind fun q hq => ?_
      obtain ⟨y, env⟩ := q
      cases y with
      | some s => exact hq
      | none => exact execDefaultT_silent cs _ h.2 hq
  | .cond cs, env, h, he => by
      rw [pureS] at h
      rw [execT]
      refine (execCasesT_silent cs _ _ h he).bind fun q hq => ?_
      obtain ⟨y, env⟩ := q
      cases y with
      | some s => exact hq
      | none => exact execDefaultT_silent cs _ h hq
  | .range x e body, env, h, he => by
      rw [pureS, Bool.and_eq_true, Bool.and_eq_true] at h
      obtain ⟨⟨h1, h2⟩, h3⟩ := h
      rw [execT]
      refine (evalT_silent hP hd _ _ h2 he).bind fun q hq => ?_
      obtain ⟨v, env⟩ := q
      rcases v with _ | ⟨v, _ | ⟨y, r⟩⟩
      · trivial
      · cases v with
        | list vs =>
            exact rangeLoopT_silent (fun v env he => inScopeT_silent (jumpsT_silent (entryT_silent body h3) _ _
              (execsT_silent body _ h3 (Free.cons (by simpa using h1) he)))) _ _ hq
        | nil => exact hq
        | _ => trivial
      · cases v <;> trivial
  | .goto l, env, h, he => by rw [execT]; exact he
  | .label l, env, h, he => by rw [execT]; exact he
  | .block b, env, h, he => by
      rw [pureS] at h
      rw [execT]
      exact inScopeT_silent (jumpsT_silent (entryT_silent b h) _ _ (execsT_silent b _ h he))
theorem execsT_silent {n : Nat} : ∀ (ss : Stmts) (env : Env), pureB N ss = true → Free N env → SilentS N (execsT P X d n ss env)
  | .nil, env, h, he => by rw [execsT]; exact he
  | .cons s ss, env, h, he => by
      rw [pureB, Bool.and_eq_true] at h
      rw [execsT]
      refine (execT_silent s env h.1 he).bind fun p hp => ?_
      obtain ⟨s, env⟩ := p
      cases s with
      | next => exact execsT_silent ss _ h.2 hp
      | _ => exact hp
theorem entryT_silent {n : Nat} : ∀ (ss : Stmts), pureB N ss = true → ∀ l env t, Free N env → entryT P X d n ss l env = some t → SilentS N t
  | .nil, h => fun l env t he ht => by rw [entryT] at ht; cases ht
  | .cons s ss, h => fun l env t he ht => by
      rw [pureB, Bool.and_eq_true] at h
      cases s with
      | label l' =>
          rw [entryT] at ht
          split at ht
          · cases ht; exact execsT_silent ss _ h.2 he
          · exact entryT_silent ss h.2 l env t he ht
      | _ => simp only [entryT] at ht; exact entryT_silent ss h.2 l env t he ht
theorem execCasesT_silent {n : Nat} : ∀ (cs : Cases) (v : Val) (env : Env), pureC N cs = true → Free N env →
    (execCasesT P X d n cs v env).Silent fun p => Free N p.2
  | .nil, v, env, h, he => by rw [execCasesT]; exact he
  | .default b cs, v, env, h, he => by
      rw [pureC, Bool.and_eq_true] at h
      rw [execCasesT]
      exact execCasesT_silent cs v env h.2 he
  | .case e body cs, v, env, h, he => by
      rw [pureC, Bool.and_eq_true, Bool.and_eq_true] at h
      obtain ⟨⟨h1, h2⟩, h3⟩ := h
      rw [execCasesT]
      refine (evalT_silent hP hd _ _ h1 he).bind fun p hp => silent_done.bind fun w _ => silent_done.bind fun y _ => ?_
      cases y with
      | true => exact (inScopeT_silent (jumpsT_silent (entryT_silent body h2) _ _ (execsT_silent body _ h2 hp))).bind fun _ hp => hp
      | false => exact execCasesT_silent cs v _ h3 hp
theorem execDefaultT_silent {n : Nat} : ∀ (cs : Cases) (env : Env), pureC N cs = true → Free N env → SilentS N (execDefaultT P X d n cs env)
  | .nil, env, h, he => by rw [execDefaultT]; exact he
  | .case e b cs, env, h, he => by
      rw [pureC, Bool.and_eq_true, Bool.and_eq_true] at h
      rw [execDefaultT]
      exact execDefaultT_silent cs env h.2 he
  | .default body cs, env, h, he => by
      rw [pureC, Bool.and_eq_true] at h
      rw [execDefaultT]
      exact inScopeT_silent (jumpsT_silent (entryT_silent body h.1) _ _ (execsT_silent body _ h.1 he))
end
end

theorem callT_silent {N : List String} {P : Prog} (hP : ∀ g ∈ P.funcs, N.contains g.name = true → pureFn N g = true) (X : Ext) :
    ∀ (n : Nat) rs env b, pureB N b = true → Free N env → (callT P X n rs env b).Silent Any
  | 0, rs, env, b, _, _ => trivial
  | n + 1, rs, env, b, h, he => by
      have ih := callT_silent hP X n
      rw [callT]
      refine (jumpsT_silent (entryT_silent hP ih b h) n _ (execsT_silent hP ih b env h he)).bind fun p hp => ?_
      obtain ⟨s, env⟩ := p
      cases s with
      | ret vs => dsimp only; split <;> trivial
      | next => dsimp only; split <;> trivial
      | goto l => trivial

end Urn.GoLang
