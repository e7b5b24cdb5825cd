import Verif.GoTree
/-!
# One access after the other is all at once

When nobody else accesses memory, a computation of `GoTree.lean` does what the interpreter of `GoSem.lean` does.
-/
set_option autoImplicit false
set_option linter.unusedSectionVars false
namespace Urn.GoLang

@[simp] theorem Io.bind_eq {α β : Type} (t : Io α) (f : α → Io β) : (t >>= f) = t.bind f := rfl
@[simp] theorem Io.pure_eq {α : Type} (a : α) : (pure a : Io α) = .done (.ok a) := rfl

theorem Io.bind_assoc {α β γ : Type} (t : Io α) (f : α → Io β) (g : β → Io γ) : (t.bind f).bind g = t.bind fun a => (f a).bind g := by
  induction t with
  | done r => cases r <;> rfl
  | read a p k ih => simp only [Io.bind, ih]
  | write a u k ih => simp only [Io.bind, ih]
  | alloc c k ih => simp only [Io.bind, ih]

theorem Io.run_bind {α β : Type} (t : Io α) (f : α → Io β) : ∀ h, (t.bind f).run h = t.run h >>= fun p => (f p.1).run p.2 := by
  induction t with
  | done r => intro h; cases r <;> rfl
  | read a p k ih =>
      intro h
      simp only [Io.bind, Io.run]
      cases h.at a p with
      | none => rfl
      | some c => exact ih c h
  | write a u k ih =>
      intro h
      simp only [Io.bind, Io.run]
      cases h.own a u with
      | none => rfl
      | some d => exact ih _
  | alloc c k ih => intro h; exact ih _ _

/-- The interpreter's result is that of the computation. -/
def Same {α : Type} (x : Res (α × State)) (t : Io (α × Env)) (h : Heap) : Prop :=
  x = t.run h >>= fun p => .ok (p.1.1, ⟨p.1.2, p.2⟩)

/-- The same for functions that return no variables. -/
def SameV {α : Type} (x : Res (α × Heap)) (t : Io α) (h : Heap) : Prop := x = t.run h

/-- The same for functions that access memory but do not change it. -/
def SameR {α : Type} (x : Res α) (t : Io α) (h : Heap) : Prop := t.run h = x >>= fun a => .ok (a, h)

theorem Same.bind {α β : Type} {x : Res (α × State)} {t : Io (α × Env)} {h : Heap} {F : α × State → Res (β × State)} {G : α × Env → Io (β × Env)}
    (hx : Same x t h) (hf : ∀ a env h, Same (F (a, ⟨env, h⟩)) (G (a, env)) h) : Same (x >>= F) (t.bind G) h := by
  unfold Same at *
  subst hx
  rw [Io.run_bind]
  cases t.run h with
  | ok p => exact hf p.1.1 p.1.2 p.2
  | panic p => rfl
  | stuck => rfl
  | more => rfl

theorem Same.bindV {α β : Type} {x : Res (α × Heap)} {t : Io α} {h : Heap} {F : α × Heap → Res (β × State)} {G : α → Io (β × Env)}
    (hx : SameV x t h) (hf : ∀ a h, Same (F (a, h)) (G a) h) : Same (x >>= F) (t.bind G) h := by
  unfold Same SameV at *
  subst hx
  rw [Io.run_bind]
  cases t.run h with
  | ok p => exact hf p.1 p.2
  | panic p => rfl
  | stuck => rfl
  | more => rfl

theorem Same.bindR {α β : Type} {x : Res α} {t : Io α} {h : Heap} {F : α → Res (β × State)} {G : α → Io (β × Env)}
    (hx : SameR x t h) (hf : ∀ a, Same (F a) (G a) h) : Same (x >>= F) (t.bind G) h := by
  unfold Same SameR at *
  rw [Io.run_bind, hx]
  cases x with
  | ok p => exact hf p
  | panic p => rfl
  | stuck => rfl
  | more => rfl

theorem SameV.bindR {α β : Type} {x : Res α} {t : Io α} {h : Heap} {F : α → Res (β × Heap)} {G : α → Io β}
    (hx : SameR x t h) (hf : ∀ a, SameV (F a) (G a) h) : SameV (x >>= F) (t.bind G) h := by
  unfold SameV SameR at *
  rw [Io.run_bind, hx]
  cases x with
  | ok p => exact hf p
  | panic p => rfl
  | stuck => rfl
  | more => rfl

theorem SameV.bind {α β : Type} {x : Res (α × Heap)} {t : Io α} {h : Heap} {F : α × Heap → Res (β × Heap)} {G : α → Io β}
    (hx : SameV x t h) (hf : ∀ a h, SameV (F (a, h)) (G a) h) : SameV (x >>= F) (t.bind G) h := by
  unfold SameV at *
  rw [Io.run_bind, hx]
  cases t.run h with
  | ok p => exact hf p.1 p.2
  | panic p => rfl
  | stuck => rfl
  | more => rfl

theorem SameR.bind {α β : Type} {x : Res α} {t : Io α} {h : Heap} {F : α → Res β} {G : α → Io β}
    (hx : SameR x t h) (hf : ∀ a, SameR (F a) (G a) h) : SameR (x >>= F) (t.bind G) h := by
  unfold SameR at *
  rw [Io.run_bind, hx]
  cases x with
  | ok p => exact hf p
  | panic p => rfl
  | stuck => rfl
  | more => rfl

theorem SameR.done {α : Type} {r : Res α} {h : Heap} : SameR r (.done r) h := by cases r <;> rfl

theorem Same.ok {α : Type} {a : α} {env : Env} {h : Heap} : Same (.ok (a, ⟨env, h⟩)) (.done (.ok (a, env))) h := rfl
theorem Same.stuck {α : Type} {h : Heap} : Same (α := α) .stuck (.done .stuck) h := rfl
theorem Same.panic {α : Type} {p : Panic} {h : Heap} : Same (α := α) (.panic p) (.done (.panic p)) h := rfl
theorem Same.more {α : Type} {h : Heap} : Same (α := α) .more (.done .more) h := rfl

/-! ## Memory -/

theorem loadObj_same (h : Heap) (a : Nat) : SameR (loadObj h a) (loadObjT a) h := by
  unfold SameR loadObjT loadObj
  rw [Io.run, Heap.at]
  cases h[a]? with
  | none => rfl
  | some c => cases c <;> rfl

theorem loadBytes_same (h : Heap) (a i n : Nat) : SameR (loadBytes h a i n) (loadBytesT a i n) h := by
  unfold SameR loadBytesT loadBytes
  rw [Io.run, Heap.at]
  cases h[a]? with
  | none => rfl
  | some c =>
      have : c.see (.bytes i n) = (c.cut i n).map .arr := by cases c <;> rfl
      dsimp only
      rw [this]
      cases c.cut i n <;> rfl

theorem field_same (h : Heap) (v : Val) (f : String) : SameR (field h v f) (fieldT v f) h := by
  cases v with
  | ptr t a =>
      cases a with
      | none => rfl
      | some a =>
          unfold SameR fieldT loadFieldT field loadObj
          dsimp only
          rw [Io.run, Heap.at]
          cases h[a]? with
          | none => rfl
          | some c =>
              cases c with
              | obj v =>
                  cases v with
                  | struct t fs =>
                      simp only [Cell.see, Res.ok_bind]
                      cases get f fs <;> rfl
                  | _ => rfl
              | _ => rfl
  | struct t fs => exact .done
  | _ => rfl

theorem indexVal_same (h : Heap) (v : Val) (i : Int) : SameR (indexVal h v i) (indexValT v i) h := by
  unfold indexValT
  split
  · unfold indexVal
    dsimp only
    split
    · refine .bind (loadBytes_same h _ _ _) fun a => ?_
      match a with
      | [] | [_] | _ :: _ :: _ => rfl
    · rfl
  · rename_i hv
    have : indexVal h v i = indexVal [] v i := by
      unfold indexVal
      cases v <;> first | rfl | exact absurd rfl (hv _ _ _ _)
    rw [this]
    exact .done

theorem toStr_same (h : Heap) (v : Val) : SameR (toStr h v) (toStrT v) h := by
  unfold toStrT
  split
  · unfold toStr
    exact .bind (loadBytes_same h _ _ _) fun a => rfl
  · rename_i hv
    have : toStr h v = toStr [] v := by
      unfold toStr
      cases v <;> first | rfl | exact absurd rfl (hv _ _ _ _)
    rw [this]
    exact .done

theorem newBytes_same (h : Heap) (b : Bytes) : SameV (.ok (newBytes h b)) (newBytesT b) h := rfl

/-- The functions that change memory and return nothing. -/
def SameU (x : Res Heap) (t : Io Unit) (h : Heap) : Prop := t.run h = x >>= fun h => .ok ((), h)

theorem SameU.bindR {α : Type} {x : Res α} {t : Io α} {h : Heap} {F : α → Res Heap} {G : α → Io Unit}
    (hx : SameR x t h) (hf : ∀ a, x = .ok a → SameU (F a) (G a) h) : SameU (x >>= F) (t.bind G) h := by
  unfold SameU SameR at *
  rw [Io.run_bind, hx]
  cases x with
  | ok p => exact hf p rfl
  | panic p => rfl
  | stuck => rfl
  | more => rfl

theorem Same.bindU {β : Type} {x : Res Heap} {t : Io Unit} {h : Heap} {F : Heap → Res (β × State)} {G : Unit → Io (β × Env)}
    (hx : SameU x t h) (hf : ∀ h, Same (F h) (G ()) h) : Same (x >>= F) (t.bind G) h := by
  unfold Same SameU at *
  rw [Io.run_bind, hx]
  cases x with
  | ok p => exact hf p
  | panic p => rfl
  | stuck => rfl
  | more => rfl

theorem store_same {h : Heap} {a : Nat} {u : Upd} {c : Cell} (ha : h.own a u = some c) : SameU (.ok (h.set a c)) (storeT a u) h := by
  unfold SameU storeT
  rw [Io.run, ha]
  rfl

theorem loadObj_ok {h : Heap} {a : Nat} {v : Val} {w : Val} (hv : loadObj h a = .ok v) : h.own a (.all w) = some (.obj w) := by
  unfold loadObj at hv
  split at hv
  · rename_i he; cases hv; rw [Heap.own, he]; rfl
  · cases hv

theorem setField_same (h : Heap) (v : Val) (f : String) (w : Val) : SameU (setField h v f w) (setFieldT v f w) h := by
  cases v with
  | ptr t a =>
      cases a with
      | none => rfl
      | some a =>
          unfold SameU setFieldT storeT setField loadObj
          dsimp only
          rw [Io.run, Heap.own]
          cases h[a]? with
          | none => rfl
          | some c =>
              cases c with
              | obj v =>
                  cases v with
                  | struct t fs =>
                      simp only [Cell.fix, Res.ok_bind]
                      cases get f fs with
                      | none => rfl
                      | some old =>
                          dsimp only
                          simp only [Res.some!, Res.ok_bind]
                          cases set f (coerce old w) fs <;> rfl
                  | _ => rfl
              | _ => rfl
  | _ => rfl

theorem setIndex_same (h : Heap) (v : Val) (i : Int) (w : Val) : SameU (setIndex h v i w) (setIndexT v i w) h := by
  cases v with
  | bytes a off len cap =>
      cases w with
      | int t n =>
          unfold setIndex setIndexT
          dsimp only
          split
          · unfold SameU storeT storeByte
            rw [Io.run, Heap.own]
            cases h[a]? with
            | none => rfl
            | some c =>
                have : ∀ i x, c.fix (.byte i x) = c.poke i x := fun i x => by cases c <;> rfl
                dsimp only
                rw [this]
                cases c.poke (off + i.toNat) (UInt8.ofNat n.toNat) <;> rfl
          · rfl
      | _ => rfl
  | _ => rfl

theorem setDeref_same (h : Heap) (v : Val) (w : Val) : SameU (setDeref h v w) (setDerefT v w) h := by
  cases v with
  | ptr t a =>
      cases a with
      | none => rfl
      | some a => exact .bindR (loadObj_same h _) fun a ha => store_same (loadObj_ok ha)
  | _ => rfl

/-! ## Calls -/

theorem method_same (P : Prog) (h : Heap) (v : Val) (f : String) :
    SameV (method P h v f >>= fun p => .ok ((p.1, p.2.1), p.2.2)) (methodT P v f) h := by
  cases v with
  | int t n =>
      unfold method methodT
      dsimp only
      cases findFn P (some (.name t)) f <;> rfl
  | ptr t a =>
      unfold method methodT
      dsimp only
      cases findFn P (some (.ptr (.name t))) f with
      | some g => rfl
      | none =>
          cases findFn P (some (.name t)) f with
          | none => rfl
          | some g =>
              cases a with
              | none => rfl
              | some a =>
                  have := loadObj_same h a
                  unfold SameR at this
                  unfold SameV
                  dsimp only
                  rw [Io.bind_eq, Io.run_bind, this]
                  cases loadObj h _ <;> rfl
  | struct t fs =>
      unfold method methodT
      dsimp only
      cases findFn P (some (.name t)) f with
      | some g => rfl
      | none =>
          cases findFn P (some (.ptr (.name t))) f with
          | some g => rfl
          | none =>
              match fs with
              | [] => rfl
              | (_, v) :: _ :: _ => cases v <;> rfl
              | [(e, v)] =>
                  cases v with
                  | ptr s a =>
                      dsimp only
                      split
                      · cases findFn P (some (.ptr (.name s))) f <;> rfl
                      · rfl
                  | _ => rfl
  | _ => rfl

theorem extCall_same (X : Ext) (p f : String) (vs : List Val) (h : Heap) : SameV (extCall X p f vs h) (extCallT X p f vs) h := by
  unfold extCall extCallT
  split
  · rcases vs with _ | ⟨v, r⟩
    · rfl
    · cases v with
      | str t => exact .bindR .done fun _ => rfl
      | _ => rfl
  · split
    · rcases vs with _ | ⟨v, r⟩
      · rfl
      · cases v with
        | str t => exact .bindR .done fun _ => rfl
        | _ => rfl
    · split
      · rcases vs with _ | ⟨v, _ | ⟨w, r⟩⟩
        · rfl
        · cases v <;> rfl
        · cases v <;> rfl
      · split
        · rcases vs with _ | ⟨v, _ | ⟨w, r⟩⟩
          · rfl
          · cases v <;> rfl
          · cases v <;> rfl
        · rfl

theorem inScope_same {n : Nat} {x : Res (Sig × State)} {t : Io (Sig × Env)} {h : Heap} (hx : Same x t h) : Same (inScope n x) (inScopeT n t) h := by
  unfold inScope inScopeT
  exact .bind hx fun _ _ _ => rfl

/-- The entries of a block: the same labels. -/
def SameE (f : String → State → Option (Res (Sig × State))) (g : String → Env → Option (Io (Sig × Env))) : Prop := ∀ l env h,
  (f l ⟨env, h⟩ = none ∧ g l env = none) ∨ ∃ x y, f l ⟨env, h⟩ = some x ∧ g l env = some y ∧ Same x y h

theorem jumps_same {f : String → State → Option (Res (Sig × State))} {g : String → Env → Option (Io (Sig × Env))} (hf : SameE f g) :
    ∀ (n : Nat) (x : Res (Sig × State)) (t : Io (Sig × Env)) (h : Heap), Same x t h → Same (jumps f n x) (jumpsT g n t) h
  | n, x, t, h, hx => by
      have : jumps f n x = x >>= fun p => jumps f n (.ok p) := by
        cases x with
        | ok p => rfl
        | _ => simp only [jumps, Res.panic_bind, Res.stuck_bind, Res.more_bind]
      rw [this, jumpsT]
      refine .bind hx fun s env h => ?_
      cases s with
      | goto l =>
          rcases hf l env h with ⟨h1, h2⟩ | ⟨a, b, h1, h2, h3⟩
          · simp only [jumps, h1, h2]; rfl
          · simp only [jumps, h1, h2]
            cases n with
            | zero => exact .more
            | succ n => exact jumps_same hf n a b h h3
      | next => simp only [jumps]; rfl
      | ret vs => simp only [jumps]; rfl

theorem rangeLoop_same {f : Val → State → Res (Sig × State)} {g : Val → Env → Io (Sig × Env)} (hf : ∀ v env h, Same (f v ⟨env, h⟩) (g v env) h) :
    ∀ (vs : List Val) (env : Env) (h : Heap), Same (rangeLoop f vs ⟨env, h⟩) (rangeLoopT g vs env) h
  | [], env, h => rfl
  | v :: vs, env, h => by
      rw [rangeLoop, rangeLoopT]
      refine .bind (hf v env h) fun s env h => ?_
      cases s with
      | next => exact rangeLoop_same hf vs _ _
      | _ => rfl

section
variable {P : Prog} {X : Ext} {c : Call} {d : CallT} (hc : ∀ rs env b h, SameV (c rs env b h) (d rs env b) h)
include hc

theorem callFn_same (g : Fn) (recv : Option Val) (vs : List Val) (s : Bool) (h : Heap) :
    SameV (callFn P c g recv vs s h) (callFnT P d g recv vs s) h := by
  unfold callFn callFnT
  refine .bindR .done fun env => ?_
  dsimp only
  cases g.recv with
  | none =>
      cases recv with
      | none => exact hc _ _ _ _
      | some v => rfl
  | some p =>
      cases recv with
      | none => rfl
      | some v => exact hc _ _ _ _

theorem callName_same (f : String) (vs : List Val) (s : Bool) (env : Env) (h : Heap) :
    Same (callName P c f vs s ⟨env, h⟩) (callNameT P d f vs s env) h := by
  unfold callName callNameT
  dsimp only
  cases get f env with
  | some v =>
      cases v with
      | func ps rs body cenv => exact Same.bindR .done fun e => Same.bindV (hc rs (e ++ cenv) body h) fun _ _ => rfl
      | _ => rfl
  | none =>
      dsimp only
      split
      · rcases vs with _ | ⟨v, _ | ⟨w, r⟩⟩
        · rfl
        · cases v <;> rfl
        · cases v <;> rfl
      · split
        · rcases vs with _ | ⟨v, _ | ⟨w, _ | ⟨x, r⟩⟩⟩
          · rfl
          · cases v <;> rfl
          · cases v <;> rfl
          · cases v <;> rfl
        · split
          · rcases vs with _ | ⟨v, _ | ⟨w, r⟩⟩
            · rfl
            · exact Same.bindR (toStr_same h v) fun _ => rfl
            · rfl
          · exact Same.bindR .done fun g => Same.bindV (callFn_same hc g none vs s h) fun _ _ => rfl

theorem methodCall_same {f : String} {s : Bool} {v : Val} {x : State → Res (List Val × State)} {t : Env → Io (List Val × Env)}
    (hx : ∀ env h, Same (x ⟨env, h⟩) (t env) h) (env : Env) (h : Heap) : Same
      (method P h v f >>= fun y => x ⟨env, y.2.2⟩ >>= fun z =>
        callFn P c y.1 (some y.2.1) z.1 s z.2.heap >>= fun y => pure (y.1, { z.2 with heap := y.2 }))
      ((methodT P v f).bind fun y => (t env).bind fun z =>
        (callFnT P d y.1 (some y.2) z.1 s).bind fun y => .done (.ok (y, z.2))) h := by
  have h1 := method_same P h v f
  have : ∀ F : (Fn × Val) × Heap → Res (List Val × State),
      (method P h v f >>= fun y => F ((y.1, y.2.1), y.2.2)) = (method P h v f >>= fun p => .ok ((p.1, p.2.1), p.2.2)) >>= F := by
    intro F
    cases method P h v f <;> rfl
  rw [this fun y => x ⟨env, y.2⟩ >>= fun z => callFn P c y.1.1 (some y.1.2) z.1 s z.2.heap >>= fun y => pure (y.1, { z.2 with heap := y.2 })]
  refine .bindV h1 fun y h => .bind (hx env h) fun vs env h => .bindV (callFn_same hc _ _ _ _ _) fun _ _ => rfl

mutual
theorem eval_same : ∀ (e : Expr) (env : Env) (h : Heap), Same (eval P X c e ⟨env, h⟩) (evalT P X d e env) h
  | .id x, env, h => by simp only [eval, evalT]; exact .bindR .done fun _ => rfl
  | .num n, env, h => by simp only [eval, evalT]; rfl
  | .str b, env, h => by simp only [eval, evalT]; rfl
  | .sel e f, env, h => by
      simp only [eval, evalT]
      exact .bind (eval_same e env h) fun v env h => .bindR .done fun v => .bindR (field_same h v f) fun _ => rfl
  | .index e i, env, h => by
      simp only [eval, evalT]
      refine .bind (eval_same e env h) fun v env h => .bindR .done fun v => .bind (eval_same i env h) fun w env h => ?_
      rcases w with _ | ⟨w, _ | ⟨y, r⟩⟩
      · rfl
      · cases w with
        | int t n => exact Same.bindR (indexVal_same h v n) fun _ => rfl
        | _ => rfl
      · cases w <;> rfl
  | .slice e i j, env, h => by
      simp only [eval, evalT]
      refine .bind (eval_same e env h) fun v env h => .bindR .done fun v => .bind (eval_same i env h) fun w env h =>
        .bind (eval_same j env h) fun z env h => ?_
      rcases w with _ | ⟨w, _ | ⟨y, r⟩⟩
      · rfl
      · cases w with
        | int t n =>
            rcases z with _ | ⟨z, _ | ⟨y, r⟩⟩
            · rfl
            · cases z with
              | int t m => exact Same.bindR .done fun _ => rfl
              | _ => rfl
            · cases z <;> rfl
        | _ => rfl
      · cases w <;> rfl
  | .call e args s, env, h => by
      cases e with
      | id f =>
          simp only [eval, evalT]
          exact .bind (evals_same args env h) fun a env h => callName_same hc _ _ _ _ _
      | sel e f =>
          cases e with
          | id p =>
              rw [eval.eq_def, evalT.eq_def]
              dsimp only
              split
              · split
                · rcases args with _ | ⟨b, _ | ⟨e2, r⟩⟩
                  · rfl
                  · rfl
                  · cases e2 with
                    | un op e3 =>
                        cases op with
                        | addr =>
                            cases e3 with
                            | id x =>
                                cases r with
                                | nil =>
                                    refine .bind (eval_same b env h) fun v env h => .bindR .done fun v => .bindR (toStr_same h _) fun w => ?_
                                    cases w with
                                    | str b =>
                                        dsimp only
                                        cases X.json.unmarshal b with
                                        | none => rfl
                                        | some s => exact Same.bindR .done fun _ => rfl
                                    | _ => rfl
                                | cons _ _ => rfl
                            | _ => rfl
                        | _ => rfl
                    | _ => rfl
                · exact .bind (evals_same args env h) fun v env h => .bindV (extCall_same X p f v h) fun _ _ => rfl
              · split
                · exact .bind (evals_same args env h) fun _ _ _ => callName_same hc _ _ _ _ _
                · exact .bindR .done fun v => methodCall_same hc (evals_same args) env h
          | _ =>
              rw [eval.eq_def, evalT.eq_def]
              dsimp only
              exact .bind (eval_same _ env h) fun a env h => .bindR .done fun v => methodCall_same hc (evals_same args) env h
      | _ => simp only [eval, evalT]; rfl
  | .un .not e, env, h => by
      simp only [eval, evalT]
      refine .bind (eval_same e env h) fun v env h => ?_
      rcases v with _ | ⟨v, _ | ⟨y, r⟩⟩
      · rfl
      · cases v <;> rfl
      · cases v <;> rfl
  | .un .deref e, env, h => by
      simp only [eval, evalT]
      refine .bind (eval_same e env h) fun v env h => ?_
      rcases v with _ | ⟨v, _ | ⟨y, r⟩⟩
      · rfl
      · cases v with
        | ptr t a =>
            cases a with
            | none => rfl
            | some a => exact Same.bindR (loadObj_same h a) fun _ => rfl
        | _ => rfl
      · cases v with
        | ptr t a => cases a <;> rfl
        | _ => rfl
  | .un .addr e, env, h => by
      cases e with
      | lit t es =>
          cases t with
          | name t =>
              simp only [eval, evalT]
              exact .bind (evalElems_same es env h) fun es env h => .bindR .done fun v => rfl
          | _ => simp only [eval, evalT]; rfl
      | _ => simp only [eval, evalT]; rfl
  | .bin o a b, env, h => by
      rw [eval.eq_def, evalT.eq_def]
      refine .bind (eval_same a env h) fun x env h => .bindR .done fun v => ?_
      have hd : ∀ o, Same (eval P X c b ⟨env, h⟩ >>= fun p => one p.1 >>= fun y => Res.some! (binVal X.bits o v y) >>= fun w => pure ([w], p.2))
          ((evalT P X d b env).bind fun p => (Io.done (one p.1)).bind fun y => (Io.done (Res.some! (binVal X.bits o v y))).bind fun w => .done (.ok ([w], p.2))) h :=
        fun o => .bind (eval_same b _ _) fun y env h => Same.bindR .done fun y => Same.bindR .done fun _ => rfl
      cases o <;> first
        | exact hd _
        | (cases v <;> first
          | exact hd _
          | (rename_i b'; cases b' <;> first | rfl | exact eval_same b _ _))
  | .lit t es, env, h => by
      cases t with
      | name t => simp only [eval, evalT]; exact .bind (evalElems_same es env h) fun _ _ _ => .bindR .done fun _ => rfl
      | slice t => simp only [eval, evalT]; exact .bind (evalElems_same es env h) fun _ _ _ => rfl
      | _ => simp only [eval, evalT]; rfl
  | .conv t e, env, h => by
      simp only [eval, evalT]
      refine .bind (eval_same e env h) fun v env h => ?_
      rcases v with _ | ⟨v, _ | ⟨y, r⟩⟩
      · rfl
      · cases v with
        | str b => dsimp only; split <;> rfl
        | _ => rfl
      · cases v <;> rfl
  | .func ps rs body, env, h => by simp only [eval, evalT]; rfl
theorem evals_same : ∀ (es : Exprs) (env : Env) (h : Heap), Same (evals P X c es ⟨env, h⟩) (evalsT P X d es env) h
  | .nil, env, h => by simp only [evals, evalsT]; rfl
  | .cons e es, env, h => by
      simp only [evals, evalsT]
      exact .bind (eval_same e env h) fun a env h => .bind (evals_same es env h) fun _ _ _ => rfl
theorem evalElems_same : ∀ (es : Elems) (env : Env) (h : Heap), Same (evalElems P X c es ⟨env, h⟩) (evalElemsT P X d es env) h
  | .nil, env, h => by simp only [evalElems, evalElemsT]; rfl
  | .cons k e es, env, h => by
      simp only [evalElems, evalElemsT]
      exact .bind (eval_same e env h) fun a env h => .bindR .done fun _ => .bind (evalElems_same es env h) fun _ _ _ => rfl
end
end

/-! ## Statements -/

/-- The same for assignments. -/
def SameS (x : Res State) (t : Io Env) (h : Heap) : Prop := x = t.run h >>= fun p => .ok ⟨p.1, p.2⟩

theorem Same.bindS {β : Type} {x : Res State} {t : Io Env} {h : Heap} {F : State → Res (β × State)} {G : Env → Io (β × Env)}
    (hx : SameS x t h) (hf : ∀ env h, Same (F ⟨env, h⟩) (G env) h) : Same (x >>= F) (t.bind G) h := by
  unfold Same SameS at *
  subst hx
  rw [Io.run_bind]
  cases t.run h with
  | ok p => exact hf p.1 p.2
  | panic p => rfl
  | stuck => rfl
  | more => rfl

theorem SameS.bind {α : Type} {x : Res (α × State)} {t : Io (α × Env)} {h : Heap} {F : α × State → Res State} {G : α × Env → Io Env}
    (hx : Same x t h) (hf : ∀ a env h, SameS (F (a, ⟨env, h⟩)) (G (a, env)) h) : SameS (x >>= F) (t.bind G) h := by
  unfold Same SameS at *
  subst hx
  rw [Io.run_bind]
  cases t.run h with
  | ok p => exact hf p.1.1 p.1.2 p.2
  | panic p => rfl
  | stuck => rfl
  | more => rfl

theorem SameS.bindR {α : Type} {x : Res α} {t : Io α} {h : Heap} {F : α → Res State} {G : α → Io Env}
    (hx : SameR x t h) (hf : ∀ a, SameS (F a) (G a) h) : SameS (x >>= F) (t.bind G) h := by
  unfold SameS SameR at *
  rw [Io.run_bind, hx]
  cases x with
  | ok p => exact hf p
  | panic p => rfl
  | stuck => rfl
  | more => rfl

theorem SameS.bindU {x : Res Heap} {t : Io Unit} {h : Heap} {F : Heap → Res State} {G : Unit → Io Env}
    (hx : SameU x t h) (hf : ∀ h, SameS (F h) (G ()) h) : SameS (x >>= F) (t.bind G) h := by
  unfold SameS SameU at *
  rw [Io.run_bind, hx]
  cases x with
  | ok p => exact hf p
  | panic p => rfl
  | stuck => rfl
  | more => rfl

section
variable {P : Prog} {X : Ext} {c : Call} {d : CallT} (hc : ∀ rs env b h, SameV (c rs env b h) (d rs env b) h)
include hc

theorem assign_same (l : Expr) (v : Val) (env : Env) (h : Heap) : SameS (store P X c l v ⟨env, h⟩) (assignT P X d l v env) h := by
  cases l with
  | id x =>
      refine SameS.bindR .done fun old => ?_
      unfold SameS
      dsimp only
      cases set x (coerce old v) env <;> rfl
  | sel e f =>
      exact SameS.bind (eval_same hc e env h) fun p env h => SameS.bindR .done fun p => SameS.bindU (setField_same h p f v) fun h => rfl
  | index e i =>
      refine SameS.bind (eval_same hc e env h) fun p env h => SameS.bindR .done fun p => SameS.bind (eval_same hc i env h) fun w env h => ?_
      rcases w with _ | ⟨w, _ | ⟨y, r⟩⟩
      · rfl
      · cases w with
        | int t n => exact SameS.bindU (setIndex_same h p n v) fun h => rfl
        | _ => rfl
      · cases w <;> rfl
  | un o e =>
      cases o with
      | deref =>
          exact SameS.bind (eval_same hc e env h) fun p env h => SameS.bindR .done fun p => SameS.bindU (setDeref_same h p v) fun h => rfl
      | _ => rfl
  | _ => rfl

mutual
theorem exec_same {n : Nat} : ∀ (s : Stmt) (env : Env) (h : Heap), Same (exec P X c n s ⟨env, h⟩) (execT P X d n s env) h
  | .expr e, env, h => by simp only [exec, execT]; exact .bind (eval_same hc e env h) fun _ _ _ => rfl
  | .assign l e, env, h => by
      rcases l with _ | ⟨l, _ | ⟨m, r⟩⟩
      · simp only [exec, execT]; rfl
      · simp only [exec, execT]
        exact .bind (evals_same hc _ _ _) fun _ _ _ => .bindR .done fun _ => .bindS (assign_same hc _ _ _ _) fun _ _ => rfl
      · simp only [exec, execT]; rfl
  | .define xs e, env, h => by
      simp only [exec, execT]
      refine .bind (evals_same hc _ _ _) fun _ _ _ => ?_
      dsimp only
      split <;> rfl
  | .add l e, env, h => by
      simp only [exec, execT]
      exact .bind (eval_same hc _ _ _) fun _ _ _ => .bindR .done fun _ => .bindS (assign_same hc _ _ _ _) fun _ _ => rfl
  | .inc l, env, h => by
      simp only [exec, execT]
      exact .bind (eval_same hc _ _ _) fun _ _ _ => .bindR .done fun _ => .bindS (assign_same hc _ _ _ _) fun _ _ => rfl
  | .dec l, env, h => by
      simp only [exec, execT]
      exact .bind (eval_same hc _ _ _) fun _ _ _ => .bindR .done fun _ => .bindS (assign_same hc _ _ _ _) fun _ _ => rfl
  | .var x t, env, h => by simp only [exec, execT]; rfl
  | .ret es, env, h => by simp only [exec, execT]; exact .bind (evals_same hc _ _ _) fun _ _ _ => rfl
  | .if_ init e a b, env, h => by
      simp only [exec, execT]
      refine inScope_same (.bind (execs_same init env h) fun s env h => ?_)
      cases s with
      | next =>
          refine .bind (eval_same hc _ _ _) fun v env h => ?_
          rcases v with _ | ⟨v, _ | ⟨y, r⟩⟩
          · rfl
          · cases v with
            | bool q =>
                cases q with
                | true => exact inScope_same (jumps_same (entry_same a) _ _ _ _ (execs_same a _ _))
                | false => exact inScope_same (jumps_same (entry_same b) _ _ _ _ (execs_same b _ _))
            | _ => rfl
          · cases v with
            | bool q => cases q <;> rfl
            | _ => rfl
      | _ => rfl
  | .switch e cs, env, h => by
      simp only [exec, execT]
      refine .bind (eval_same hc _ _ _) fun x env h => .bindR .done fun v => .bind (execCases_same cs _ _ _) fun y env h => ?_
      cases y with
      | some s => rfl
      | none => exact execDefault_same cs _ _
  | .cond cs, env, h => by
      simp only [exec, execT]
      refine .bind (execCases_same cs _ _ _) fun y env h => ?_
      cases y with
      | some s => rfl
      | none => exact execDefault_same cs _ _
  | .range x e body, env, h => by
      simp only [exec, execT]
      refine .bind (eval_same hc _ _ _) fun v env h => ?_
      rcases v with _ | ⟨v, _ | ⟨y, r⟩⟩
      · rfl
      · cases v with
        | list vs => exact rangeLoop_same (fun v env h => inScope_same (jumps_same (entry_same body) _ _ _ _ (execs_same body _ _))) _ _ _
        | _ => rfl
      · cases v <;> rfl
  | .goto l, env, h => by simp only [exec, execT]; rfl
  | .label l, env, h => by simp only [exec, execT]; rfl
  | .block b, env, h => by simp only [exec, execT]; exact inScope_same (jumps_same (entry_same b) _ _ _ _ (execs_same b _ _))
theorem execs_same {n : Nat} : ∀ (ss : Stmts) (env : Env) (h : Heap), Same (execs P X c n ss ⟨env, h⟩) (execsT P X d n ss env) h
  | .nil, env, h => by simp only [execs, execsT]; rfl
  | .cons s ss, env, h => by
      simp only [execs, execsT]
      refine .bind (exec_same s env h) fun x env h => ?_
      cases x with
      | next => exact execs_same ss _ _
      | _ => rfl
theorem entry_same {n : Nat} : ∀ (ss : Stmts), SameE (entry P X c n ss) (entryT P X d n ss)
  | .nil => fun l env h => .inl ⟨by simp only [entry], by simp only [entryT]⟩
  | .cons s ss => fun l env h => by
      cases s with
      | label l' =>
          simp only [entry, entryT]
          split
          · exact .inr ⟨_, _, rfl, rfl, execs_same ss _ _⟩
          · exact entry_same ss _ _ _
      | _ => simp only [entry, entryT]; exact entry_same ss _ _ _
theorem execCases_same {n : Nat} : ∀ (cs : Cases) (v : Val) (env : Env) (h : Heap),
    Same (execCases P X c n cs v ⟨env, h⟩) (execCasesT P X d n cs v env) h
  | .nil, v, env, h => by simp only [execCases, execCasesT]; rfl
  | .default b cs, v, env, h => by simp only [execCases, execCasesT]; exact execCases_same cs v env h
  | .case e body cs, v, env, h => by
      simp only [execCases, execCasesT]
      refine .bind (eval_same hc _ _ _) fun x env h => .bindR .done fun w => .bindR .done fun y => ?_
      cases y with
      | true => exact .bind (inScope_same (jumps_same (entry_same body) _ _ _ _ (execs_same body _ _))) fun _ _ _ => rfl
      | false => exact execCases_same cs v _ _
theorem execDefault_same {n : Nat} : ∀ (cs : Cases) (env : Env) (h : Heap),
    Same (execDefault P X c n cs ⟨env, h⟩) (execDefaultT P X d n cs env) h
  | .nil, env, h => by simp only [execDefault, execDefaultT]; rfl
  | .case e b cs, env, h => by simp only [execDefault, execDefaultT]; exact execDefault_same cs env h
  | .default body cs, env, h => by
      simp only [execDefault, execDefaultT]
      exact inScope_same (jumps_same (entry_same body) _ _ _ _ (execs_same body _ _))
end
end

/-! ## Calls of the program -/

theorem callN_same (P : Prog) (X : Ext) : ∀ (n : Nat) rs env b h, SameV (callN P X n rs env b h) (callT P X n rs env b) h
  | 0, rs, env, b, h => rfl
  | n + 1, rs, env, b, h => by
      have ih := callN_same P X n
      have hj := jumps_same (entry_same (P := P) (X := X) ih (n := n) b) n _ _ _ (execs_same (P := P) (X := X) ih (n := n) b env h)
      unfold Same at hj
      unfold SameV
      rw [callN, callT, hj, Io.bind_eq, Io.run_bind]
      cases Io.run _ h with
      | ok p =>
          obtain ⟨⟨s, env⟩, h⟩ := p
          cases s with
          | ret vs => simp only [Res.ok_bind]; split <;> rfl
          | next => simp only [Res.ok_bind]; split <;> rfl
          | goto l => rfl
      | panic p => rfl
      | stuck => rfl
      | more => rfl

theorem runFn_same (P : Prog) (X : Ext) (n : Nat) (f : String) (vs : List Val) (s : Bool) (h : Heap) :
    SameV (runFn P X n f vs s h) (runFnT P X n f vs s) h :=
  .bindR .done fun g => callFn_same (callN_same P X n) g none vs s h

theorem runMethod_same (P : Prog) (X : Ext) (n : Nat) (v : Val) (f : String) (vs : List Val) (h : Heap) :
    SameV (runMethod P X n v f vs h) (runMethodT P X n v f vs) h := by
  have h1 := method_same P h v f
  have : runMethod P X n v f vs h = (method P h v f >>= fun p => .ok ((p.1, p.2.1), p.2.2)) >>= fun y =>
      callFn P (callN P X n) y.1.1 (some y.1.2) vs false y.2 := by
    unfold runMethod
    cases method P h v f <;> rfl
  rw [this]
  exact .bind h1 fun y h => callFn_same (callN_same P X n) y.1 (some y.2) vs false h

end Urn.GoLang
