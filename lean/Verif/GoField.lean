import Verif.GoFieldSpec
import Verif.GoRaceEnd
/-!
# Goroutines that access fields of the same URN
-/
set_option autoImplicit false
namespace Urn.GoLang
open Urn.Heap (Mem Got)

/-- The access is one of these uses. -/
def UsedBy (us : List Use) (U S : List Nat) (x : Access) : Prop :=
  ∃ u ∈ us, AddrOf U S x.cell u.place ∧ (u.part = .all ∨ x.part = u.part) ∧ (x.write = true → u.write = true)

/-! ## Trees with few accesses -/

/-- All accesses are to memory that it made itself or as `A` says, whatever it reads. -/
def Io.Only {α : Type} : Io α → (Access → Prop) → Prop
  | done _, _ => True
  | read a p k, A => A ⟨false, a, p⟩ ∧ ∀ c, Only (k c) A
  | write a u k, A => A ⟨true, a, u.part⟩ ∧ Only k A
  | alloc _ k, A => ∀ a, Only (k a) fun x => A x ∨ x.cell = a

theorem Io.Only.mono {α : Type} {t : Io α} : ∀ {A B : Access → Prop}, t.Only A → (∀ x, A x → B x) → t.Only B := by
  induction t with
  | done r => intros; trivial
  | read a p k ih => exact fun h hAB => ⟨hAB _ h.1, fun c => ih c (h.2 c) hAB⟩
  | write a u k ih => exact fun h hAB => ⟨hAB _ h.1, ih h.2 hAB⟩
  | alloc c k ih => exact fun h hAB a => ih a (h a) fun x hx => hx.imp (hAB x) id

theorem Io.Only.bind {α β : Type} {t : Io α} {f : α → Io β} : ∀ {A : Access → Prop}, t.Only A → (∀ a, (f a).Only A) → (t.bind f).Only A := by
  induction t with
  | done r =>
      intro A _ hf
      cases r with
      | ok a => exact hf a
      | _ => trivial
  | read a p k ih => exact fun h hf => ⟨h.1, fun c => ih c (h.2 c) hf⟩
  | write a u k ih => exact fun h hf => ⟨h.1, ih h.2 hf⟩
  | alloc c k ih => exact fun h hf a => ih a (h a) fun b => (hf b).mono fun _ => .inl

theorem Io.Only.log {α : Type} {t : Io α} : ∀ {A : Access → Prop} {h : Heap}, t.Only A → ∀ x, x ∈ t.log h → x.cell < h.length → A x := by
  induction t with
  | done r => intro A h _ x hx; cases hx
  | read a p k ih =>
      intro A h ht x hx hl
      rw [Io.log] at hx
      rcases List.mem_cons.1 hx with rfl | hx
      · exact ht.1
      · split at hx
        · exact ih _ (ht.2 _) x hx hl
        · cases hx
  | write a u k ih =>
      intro A h ht x hx hl
      rw [Io.log] at hx
      rcases List.mem_cons.1 hx with rfl | hx
      · exact ht.1
      · split at hx
        · exact ih ht.2 x hx (by rw [List.length_set]; exact hl)
        · cases hx
  | alloc c k ih =>
      intro A h ht x hx hl
      rcases ih _ (ht _) x hx (by rw [List.length_append]; omega) with h | h
      · exact h
      · omega

/-! ## Single calls -/

section
variable {X : Ext} {R : Regs}

theorem only_done {α : Type} {r : Res α} {A : Access → Prop} : (Io.done r).Only A := trivial

theorem only_body {n : Nat} {rs : List Ty} {env : Env} {b : Stmts} {A : Access → Prop} (hl : ∀ n l env, entryT prog X (callT prog X n) n b l env = none)
    (hb : ∀ n, (execsT prog X (callT prog X n) n b env).Only A) : (callT prog X n rs env b).Only A := by
  cases n with
  | zero => trivial
  | succ n =>
      rw [callT, jumpsT.eq_def]
      refine Io.Only.bind (Io.Only.bind (hb n) fun y => ?_) fun y => ?_
      · obtain ⟨s, env⟩ := y
        cases s with
        | goto l => dsimp only; rw [hl]; trivial
        | _ => trivial
      · obtain ⟨s, env⟩ := y
        cases s <;> dsimp only <;> first | trivial | (split <;> trivial)

theorem only_call {n : Nat} {g : Fn} {v : Val} {vs : List Val} {env : Env} {p : Param} {A : Access → Prop} (hr : g.recv = some p)
    (he : bindParams prog false g.params vs = some env) (hb : ∀ n, (callT prog X n g.results ((p.name, v) :: env) g.body).Only A) :
    (callFnT prog (callT prog X n) g (some v) vs false).Only A := by
  unfold callFnT
  rw [he, hr]
  exact hb n

/-- `return p.m()` -/
theorem only_ret {n : Nat} {rs : List Ty} {env : Env} {p m : String} {v : Val} {g : Fn} {args : Exprs} {A : Access → Prop} (hp : get p env = some v)
    (hm : methodT prog v m = .done (.ok (g, v))) {vs : List Val} (ha : ∀ n, evalsT prog X (callT prog X n) args env = .done (.ok (vs, env)))
    (hg : ∀ n, (callFnT prog (callT prog X n) g (some v) vs false).Only A) :
    (callT prog X n rs env (.cons (.ret (.cons (.call (.sel (.id p) m) args false) .nil)) .nil)).Only A := by
  refine only_body (fun n l env => by simp [entryT]) fun n => ?_
  rw [execsT, execT, evalsT, evalT.eq_def]
  dsimp only
  simp only [hp, reduceCtorEq, false_and, if_false, lookup, Res.some!, Io.bind_eq, Io.bind, hm, ha]
  refine Io.Only.bind ?_ fun y => ?_
  · refine Io.Only.bind ?_ fun y => only_done
    refine Io.Only.bind (Io.Only.bind (hg n) fun y => only_done) fun y => ?_
    rw [evalsT]
    exact only_done
  · obtain ⟨s, env⟩ := y
    cases s <;> dsimp only <;> first | exact only_done | (rw [execsT]; exact only_done)

/-- The accesses to a field through a pointer. -/
def Reads (p : Option Nat) (fs : List String) (x : Access) : Prop := p = some x.cell ∧ x.write = false ∧ ∃ f ∈ fs, x.part = .field f

theorem only_field {p : Option Nat} {t f : String} : (fieldT (.ptr t p) f).Only (Reads p [f]) := by
  cases p with
  | none => trivial
  | some a => exact ⟨⟨rfl, rfl, f, by simp, rfl⟩, fun c => by cases c <;> trivial⟩

/-- `return p.f` -/
theorem only_get {n : Nat} {rs : List Ty} {env : Env} {x t f : String} {p : Option Nat} (hp : get x env = some (.ptr t p)) :
    (callT prog X n rs env (.cons (.ret (.cons (.sel (.id x) f) .nil)) .nil)).Only (Reads p [f]) := by
  refine only_body (fun n l env => by simp [entryT]) fun n => ?_
  rw [execsT, execT, evalsT, evalT, evalT]
  simp only [hp, lookup, Res.some!, Io.bind_eq, Io.bind, one, Io.pure_eq]
  refine Io.Only.bind ?_ fun y => ?_
  · refine Io.Only.bind (Io.Only.bind (Io.Only.bind only_field fun y => only_done) fun y => ?_) fun y => only_done
    rw [evalsT]
    exact only_done
  · obtain ⟨s, env⟩ := y
    cases s <;> dsimp only <;> first | exact only_done | (rw [execsT]; exact only_done)

/-- `p.f = v` -/
theorem only_set {n : Nat} {rs : List Ty} {env : Env} {x y t f : String} {p : Option Nat} {v : Val} (hp : get x env = some (.ptr t p)) (hv : get y env = some v) :
    (callT prog X n rs env (.cons (.assign (.cons (.sel (.id x) f) .nil) (.cons (.id y) .nil)) .nil)).Only
      fun z => p = some z.cell ∧ z.write = true ∧ z.part = .field f := by
  refine only_body (fun n l env => by simp [entryT]) fun n => ?_
  rw [execsT, execT, evalsT, evalT]
  simp only [hp, hv, lookup, Res.some!, Io.bind_eq, Io.bind, one, Io.pure_eq, List.cons_append, List.nil_append, assignT, evalT, evalsT]
  refine Io.Only.bind (Io.Only.bind (Io.Only.bind ?_ fun y => only_done) fun y => only_done) fun y => ?_
  · cases p with
    | none => trivial
    | some a => exact ⟨⟨rfl, rfl, rfl⟩, trivial⟩
  · obtain ⟨s, env⟩ := y
    cases s <;> dsimp only <;> first | exact only_done | (rw [execsT]; exact only_done)
end

/-! ## Normalize and Equal -/

/-- As `Only`, and what it returns is as `Q` says, which knows what may be accessed then. -/
def Io.Will {α : Type} : Io α → (Access → Prop) → (α → (Access → Prop) → Prop) → Prop
  | done (.ok a), A, Q => Q a A
  | done _, _, _ => True
  | read a p k, A, Q => A ⟨false, a, p⟩ ∧ ∀ c, Will (k c) A Q
  | write a u k, A, Q => A ⟨true, a, u.part⟩ ∧ Will k A Q
  | alloc _ k, A, Q => ∀ a, Will (k a) (fun x => A x ∨ x.cell = a) Q

theorem Io.Will.only {α : Type} {t : Io α} : ∀ {A : Access → Prop} {Q : α → (Access → Prop) → Prop}, t.Will A Q → t.Only A := by
  induction t with
  | done r => intros; trivial
  | read a p k ih => exact fun h => ⟨h.1, fun c => ih c (h.2 c)⟩
  | write a u k ih => exact fun h => ⟨h.1, ih h.2⟩
  | alloc c k ih => exact fun h a => ih a (h a)

theorem Io.Will.bind {α β : Type} {t : Io α} {f : α → Io β} {Q : α → (Access → Prop) → Prop} {Q' : β → (Access → Prop) → Prop} :
    ∀ {A : Access → Prop}, t.Will A Q → (∀ a B, (∀ x, A x → B x) → Q a B → (f a).Will B Q') → (t.bind f).Will A Q' := by
  induction t with
  | done r =>
      intro A h hf
      cases r with
      | ok a => exact hf a A (fun _ h => h) h
      | _ => trivial
  | read a p k ih => exact fun h hf => ⟨h.1, fun c => ih c (h.2 c) hf⟩
  | write a u k ih => exact fun h hf => ⟨h.1, ih h.2 hf⟩
  | alloc c k ih => exact fun h hf a => ih a (h a) fun b B hB => hf b B fun x hx => hB x (.inl hx)

theorem Io.Will.mono {α : Type} {t : Io α} : ∀ {A : Access → Prop} {Q : α → (Access → Prop) → Prop}, t.Will A Q → t.Will A fun _ _ => True := by
  induction t with
  | done r => intros; cases ‹Res _› <;> trivial
  | read a p k ih => exact fun h => ⟨h.1, fun c => ih c (h.2 c)⟩
  | write a u k ih => exact fun h => ⟨h.1, ih h.2⟩
  | alloc c k ih => exact fun h a => ih a (h a)

abbrev Fine {α : Type} : α → (Access → Prop) → Prop := fun _ _ => True

theorem will_done {α : Type} {r : Res α} {A : Access → Prop} : (Io.done r).Will A Fine := by cases r <;> trivial

section
variable {X : Ext} {A : Access → Prop} {env : Env}

/-- It leaves the variables as they are. -/
abbrev Keeps {α : Type} (env : Env) : α × Env → (Access → Prop) → Prop := fun y _ => y.2 = env

theorem will_field {t f : String} {p : Option Nat} (hA : ∀ a, p = some a → A ⟨false, a, .field f⟩) : (fieldT (.ptr t p) f).Will A Fine := by
  cases p with
  | none => trivial
  | some a => exact ⟨hA a rfl, fun c => by cases c <;> trivial⟩

theorem will_sel {d : CallT} {x t f : String} {p : Option Nat} (hx : get x env = some (.ptr t p)) (hA : ∀ a, p = some a → A ⟨false, a, .field f⟩) :
    (evalT prog X d (.sel (.id x) f) env).Will A (Keeps env) := by
  rw [evalT, evalT]
  simp only [hx, lookup, Res.some!, Io.bind_eq, Io.bind, one, Io.pure_eq]
  exact (will_field hA).bind fun _ _ _ _ => rfl

theorem will_bin {d : CallT} {o : BinOp} {a b : Expr} (ha : (evalT prog X d a env).Will A (Keeps env))
    (hb : ∀ B : Access → Prop, (∀ x, A x → B x) → (evalT prog X d b env).Will B (Keeps env)) : (evalT prog X d (.bin o a b) env).Will A (Keeps env) := by
  rw [evalT]
  refine ha.bind fun y B hB hy => ?_
  obtain ⟨vs, e⟩ := y
  cases hy
  refine will_done.bind fun v C hC _ => ?_
  dsimp only
  split
  · rfl
  · exact hb C fun x hx => hC x (hB x hx)
  · rfl
  · exact hb C fun x hx => hC x (hB x hx)
  · refine (hb C fun x hx => hC x (hB x hx)).bind fun z D hD hz => ?_
    obtain ⟨ws, e⟩ := z
    cases hz
    exact will_done.bind fun _ _ _ _ => will_done.bind fun _ _ _ _ => rfl

theorem will_evals {d : CallT} {e : Expr} (he : (evalT prog X d e env).Will A (Keeps env)) : (evalsT prog X d (.cons e .nil) env).Will A (Keeps env) := by
  rw [evalsT]
  refine he.bind fun y B _ hy => ?_
  obtain ⟨vs, e⟩ := y
  cases hy
  dsimp only
  rw [evalsT]
  rfl

theorem will_elems {d : CallT} {k : String} {e : Expr} {es : Elems} (he : (evalT prog X d e env).Will A (Keeps env))
    (hes : ∀ B : Access → Prop, (∀ x, A x → B x) → (evalElemsT prog X d es env).Will B (Keeps env)) : (evalElemsT prog X d (.cons k e es) env).Will A (Keeps env) := by
  rw [evalElemsT]
  refine he.bind fun y B hB hy => ?_
  obtain ⟨vs, e⟩ := y
  cases hy
  exact will_done.bind fun v C hC _ => (hes C fun x hx => hC x (hB x hx)).bind fun z D _ hz => hz

theorem will_lower {d : CallT} {e : Expr} (hs : get "strings" env = none) (he : (evalT prog X d e env).Will A (Keeps env)) :
    (evalT prog X d (.call (.sel (.id "strings") "ToLower") (.cons e .nil) false) env).Will A (Keeps env) := by
  rw [evalT.eq_def]
  dsimp only
  rw [if_pos ⟨hs, rfl⟩, if_neg (by decide)]
  refine (will_evals he).bind fun y B _ hy => ?_
  refine Io.Will.bind (Q := Fine) ?_ fun _ _ _ _ => hy
  unfold extCallT
  rw [if_neg (by decide), if_neg (by decide), if_pos (by decide)]
  split <;> trivial

/-- A pointer to memory of its own. -/
abbrev Fresh : List Val → (Access → Prop) → Prop := fun vs B => ∃ a, vs = [.ptr "URN" (some a)] ∧ ∀ x, x.cell = a → B x

/-- `Normalize` reads two fields and returns a pointer to memory that it made. -/
theorem will_normalize {n : Nat} {p : Option Nat} (hA : ∀ a f, p = some a → f ∈ ["ID", "norm"] → A ⟨false, a, .field f⟩) :
    (callFnT prog (callT prog X n) normalizeFn (some (.ptr "URN" p)) [] false).Will A Fresh := by
  have e : callFnT prog (callT prog X n) normalizeFn (some (.ptr "URN" p)) [] false = callT prog X n [.ptr (.name "URN")] [("u", .ptr "URN" p)] normalizeFn.body := rfl
  rw [e]
  cases n with
  | zero => trivial
  | succ n =>
      have key : (evalT prog X (callT prog X n) (.un .addr (.lit (.name "URN") (.cons "prefix" (.str [117, 114, 110]) (.cons "ID"
          (.call (.sel (.id "strings") "ToLower") (.cons (.sel (.id "u") "ID") .nil) false) (.cons "SS" (.sel (.id "u") "norm") .nil))))) [("u", .ptr "URN" p)]).Will A
          fun y B => Fresh y.1 B := by
        rw [evalT]
        refine Io.Will.bind (Q := Keeps [("u", .ptr "URN" p)]) ?_ fun y B _ _ => will_done.bind fun v C _ _ => ?_
        · refine will_elems (by rw [evalT]; rfl) fun B hB => will_elems (will_lower rfl (will_sel rfl fun a ha => hB _ (hA a _ ha (by simp)))) fun C hC =>
            will_elems (will_sel rfl fun a ha => hC _ (hB _ (hA a _ ha (by simp)))) fun D _ => ?_
          rw [evalElemsT]
          rfl
        · exact fun a => ⟨a, rfl, fun x hx => .inr hx⟩
      rw [callT, jumpsT.eq_def]
      unfold normalizeFn
      dsimp only
      rw [execsT, execT, evalsT]
      refine Io.Will.bind (Q := fun y B => ∃ vs, y.1 = .ret vs ∧ Fresh vs B) ?_ fun y B _ hy => ?_
      · refine Io.Will.bind (Q := fun y B => ∃ vs, y.1 = .ret vs ∧ Fresh vs B) ?_ fun y B _ hy => ?_
        · refine Io.Will.bind (Q := fun y B => ∃ vs, y.1 = .ret vs ∧ Fresh vs B) ?_ fun y B _ hy => ?_
          · refine Io.Will.bind (Q := fun y B => Fresh y.1 B) (key.bind fun y B _ hy => ?_) fun y B _ hy => ⟨_, rfl, hy⟩
            obtain ⟨vs, e⟩ := y
            obtain ⟨a, h1, h2⟩ := hy
            dsimp only
            rw [evalsT]
            exact ⟨a, by dsimp only at h1 ⊢; rw [h1]; rfl, h2⟩
          · obtain ⟨s, env⟩ := y
            obtain ⟨vs, h1, h2⟩ := hy
            cases h1
            exact ⟨vs, rfl, h2⟩
        · obtain ⟨s, env⟩ := y
          obtain ⟨vs, h1, h2⟩ := hy
          cases h1
          exact ⟨vs, rfl, h2⟩
      · obtain ⟨s, env⟩ := y
        obtain ⟨vs, h1, a, rfl, h2⟩ := hy
        cases h1
        dsimp only
        exact ⟨a, by simp [zero_urn, coerce], h2⟩

theorem will_execs {n : Nat} {s : Stmt} {ss : Stmts} {Q : Sig × Env → (Access → Prop) → Prop} (h : (execT prog X (callT prog X n) n s env).Will A Q)
    (hs : ∀ env B, (∀ x, A x → B x) → Q (.next, env) B → (execsT prog X (callT prog X n) n ss env).Will B Fine) :
    (execsT prog X (callT prog X n) n (.cons s ss) env).Will A Fine := by
  rw [execsT]
  refine h.bind fun y B hB hy => ?_
  obtain ⟨s, env⟩ := y
  cases s with
  | next => exact hs env B hB hy
  | _ => trivial

/-- `if c { return es }` -/
theorem will_guard {n : Nat} {c : Expr} {es : Exprs} (hc : (evalT prog X (callT prog X n) c env).Will A (Keeps env))
    (he : ∀ B : Access → Prop, (∀ x, A x → B x) → (evalsT prog X (callT prog X n) es env).Will B Fine) :
    (execT prog X (callT prog X n) n (.if_ .nil c (.cons (.ret es) .nil) .nil) env).Will A fun y _ => y.1 = .next → y.2 = env := by
  rw [execT, execsT]
  refine Io.Will.bind (Q := fun y _ => y.1 = .next → y.2 = env) ?_ fun y B _ hy h => ?_
  · refine hc.bind fun y B hB hy => ?_
    obtain ⟨vs, e⟩ := y
    cases hy
    dsimp only
    split
    · rename_i h; cases h
      rw [jumpsT.eq_def, execsT, execT]
      refine Io.Will.bind (Q := fun y _ => ∃ vs, y.1 = .ret vs) ?_ fun y C _ hy => ?_
      · refine Io.Will.bind (Q := fun y _ => ∃ vs, y.1 = .ret vs) ?_ fun y C _ hy => ?_
        · refine Io.Will.bind (Q := fun y _ => ∃ vs, y.1 = .ret vs) ?_ fun y C _ hy => ?_
          · exact (he B hB).bind fun y C _ _ => ⟨_, rfl⟩
          · obtain ⟨s, env⟩ := y
            obtain ⟨vs, h1⟩ := hy
            cases h1
            exact ⟨vs, rfl⟩
        · obtain ⟨s, env⟩ := y
          obtain ⟨vs, h1⟩ := hy
          cases h1
          exact ⟨vs, rfl⟩
      · obtain ⟨s, env⟩ := y
        obtain ⟨vs, h1⟩ := hy
        cases h1
        exact fun h => nomatch h
    · rename_i h; cases h
      rw [jumpsT.eq_def, execsT]
      exact fun _ => by simp
    · trivial
  · obtain ⟨s, e⟩ := y
    cases h
    cases hy rfl
    simp

theorem will_ret {n : Nat} {es : Exprs} (he : (evalsT prog X (callT prog X n) es env).Will A Fine) : (execsT prog X (callT prog X n) n (.cons (.ret es) .nil) env).Will A Fine := by
  refine will_execs (Q := Fine) ?_ fun env B _ _ => ?_
  · rw [execT]
    exact he.bind fun _ _ _ _ => trivial
  · rw [execsT]
    trivial

theorem will_id {d : CallT} {x : String} : (evalT prog X d (.id x) env).Will A (Keeps env) := by
  rw [evalT]
  exact will_done.bind fun _ _ _ _ => rfl

theorem will_define {n : Nat} {x : String} {e : Expr} (he : (evalT prog X (callT prog X n) e env).Will A fun y B => Fresh y.1 B ∧ y.2 = env) :
    (execT prog X (callT prog X n) n (.define [x] (.cons e .nil)) env).Will A fun y B => ∃ a, y = (.next, (x, .ptr "URN" (some a)) :: env) ∧ ∀ x, x.cell = a → B x := by
  rw [execT, evalsT]
  refine Io.Will.bind (Q := fun y B => Fresh y.1 B ∧ y.2 = env) (he.bind fun y B _ hy => ?_) fun y B _ hy => ?_
  · obtain ⟨vs, e⟩ := y
    obtain ⟨⟨a, h1, h2⟩, h3⟩ := hy
    cases h3
    dsimp only at h1 ⊢
    cases h1
    rw [evalsT]
    exact ⟨⟨a, rfl, h2⟩, rfl⟩
  · obtain ⟨vs, e⟩ := y
    obtain ⟨⟨a, h1, h2⟩, h3⟩ := hy
    cases h3
    dsimp only at h1 ⊢
    cases h1
    exact ⟨a, rfl, h2⟩

theorem will_equal {n : Nat} {p q : Option Nat} (hp : ∀ a f, p = some a → f ∈ ["ID", "norm"] → A ⟨false, a, .field f⟩)
    (hq : ∀ a f, q = some a → f ∈ ["ID", "norm"] → A ⟨false, a, .field f⟩) :
    (callFnT prog (callT prog X n) equalFn (some (.ptr "URN" p)) [.ptr "URN" q] false).Only A := by
  have e : callFnT prog (callT prog X n) equalFn (some (.ptr "URN" p)) [.ptr "URN" q] false =
      callT prog X n [.name "bool"] [("u", .ptr "URN" p), ("x", .ptr "URN" q)] equalFn.body := by
    unfold callFnT
    simp [equalFn, bindParams, zero_urn, coerce, Res.some!, Io.bind]
  rw [e]
  refine only_body (fun n l env => by simp [equalFn, entryT]) fun n => ?_
  refine Io.Will.only (Q := Fine) ?_
  have hn : ∀ {B : Access → Prop} {env : Env} {x : String} {r : Option Nat}, get x env = some (.ptr "URN" r) →
      (∀ a f, r = some a → f ∈ ["ID", "norm"] → B ⟨false, a, .field f⟩) →
      (evalT prog X (callT prog X n) (.call (.sel (.id x) "Normalize") .nil false) env).Will B fun y C => Fresh y.1 C ∧ y.2 = env := by
    intro B env x r hx hr
    rw [evalT.eq_def]
    dsimp only
    have hm : methodT prog (.ptr "URN" r) "Normalize" = .done (.ok (normalizeFn, .ptr "URN" r)) := by unfold methodT; simp [find_normalize]
    simp only [hx, reduceCtorEq, false_and, if_false, lookup, Res.some!, Io.bind_eq, Io.bind, hm, evalsT, Io.pure_eq]
    exact (will_normalize hr).bind fun y C _ hy => ⟨hy, rfl⟩
  unfold equalFn
  dsimp only
  rw [execsT]
  refine will_execs (will_guard (will_bin will_id fun B _ => ?_) fun B _ => ?_) fun env B hB h => ?_
  · rw [evalT]; rfl
  · rw [evalsT, evalT]; trivial
  · cases h rfl
    refine will_execs (will_define (hn rfl fun a f ha hf => hB _ (hp a f ha hf))) fun env C hC h => ?_
    obtain ⟨a, h, ha⟩ := h
    cases h
    refine will_execs (will_define (hn rfl fun a f ha hf => hC _ (hB _ (hq a f ha hf)))) fun env D hD h => ?_
    obtain ⟨b, h, hb⟩ := h
    cases h
    have hs : ∀ {B : Access → Prop} {f : String}, (∀ x, D x → B x) → (evalT prog X (callT prog X n) (.bin .eq (.sel (.id "nu") f) (.sel (.id "nx") f))
        [("nx", .ptr "URN" (some b)), ("nu", .ptr "URN" (some a)), ("u", .ptr "URN" p), ("x", .ptr "URN" q)]).Will B (Keeps _) := fun hB =>
      will_bin (will_sel rfl fun c hc => hB _ (hD _ (ha _ (by cases hc; rfl)))) fun E hE => will_sel rfl fun c hc => hE _ (hB _ (hb _ (by cases hc; rfl)))
    exact will_ret (Io.Will.mono <| will_evals <| will_bin (will_bin (hs fun _ h => h) fun E hE => hs hE) fun E hE => hs hE)

/-- `IsSCIM` reads the kind. -/
theorem will_isSCIM {n : Nat} {p : Option Nat} (hA : ∀ a, p = some a → A ⟨false, a, .field "kind"⟩) : (callFnT prog (callT prog X n) isScimFn (some (.ptr "URN" p)) [] false).Only A := by
  refine only_call rfl rfl fun n => only_body (fun n l env => by simp [isScimFn, entryT]) fun n => Io.Will.only (Q := Fine) (will_ret (Io.Will.mono (will_evals (will_bin (will_sel rfl hA) fun B _ => ?_))))
  rw [evalT]
  rfl

/-- `SCIM` reads the kind and the result. -/
theorem will_SCIM {n : Nat} {p : Option Nat} (hA : ∀ a f, p = some a → f ∈ ["kind", "scim"] → A ⟨false, a, .field f⟩) :
    (callFnT prog (callT prog X n) scimFn (some (.ptr "URN" p)) [] false).Only A := by
  refine only_call rfl rfl fun n => only_body (fun n l env => by simp [scimFn, entryT]) fun n => Io.Will.only (Q := Fine)
    (will_execs (will_guard (will_bin (will_sel rfl fun a ha => hA a _ ha (by simp)) fun B _ => ?_) fun B _ => ?_) fun env B hB h => ?_)
  · rw [evalT]; rfl
  · rw [evalsT, evalT]; trivial
  · cases h rfl
    exact will_ret (Io.Will.mono (will_evals (will_sel rfl fun a ha => hB _ (hA a _ ha (by simp)))))
end

/-! ## The calls of the client -/

section
variable {X : Ext}

theorem method_urn {p : Option Nat} {m : String} {g : Fn} (hg : findFn prog (some (.ptr (.name "URN"))) m = some g) :
    methodT prog (.ptr "URN" p) m = .done (.ok (g, .ptr "URN" p)) := by
  unfold methodT
  simp [hg]

/-- A function of the client that calls a method without arguments. -/
theorem only_method {n : Nat} {f m : String} {c g : Fn} {p : Option Nat} {A : Access → Prop} (hc : findFn cprog none f = some c) (hr : c.recv = none)
    (hp : c.params = [⟨"p", .ptr (.name "URN"), false⟩]) (hb : c.body = .cons (.ret (.cons (.call (.sel (.id "p") m) .nil false) .nil)) .nil)
    (hg : findFn prog (some (.ptr (.name "URN"))) m = some g) (h : ∀ n, (callFnT prog (callT prog X n) g (some (.ptr "URN" p)) [] false).Only A) :
    (callClientT prog cprog X n f [.ptr "URN" p]).Only A := by
  rw [cl_startT (env := [("p", .ptr "URN" p)]) hc hr (by rw [hp]; simp [bindParams, zero_urn, coerce]), hb]
  exact only_ret rfl (method_urn hg) (fun n => by rw [evalsT]; rfl) h

theorem reads_of {p : Option Nat} {fs : List String} : ∀ a f, p = some a → f ∈ fs → Reads p fs ⟨false, a, .field f⟩ := fun _ f ha hf => ⟨ha, rfl, f, hf, rfl⟩

theorem o_normalize (p : Option Nat) (n : Nat) : (callClientT prog cprog X n "normalize" [.ptr "URN" p]).Only (Reads p ["ID", "norm"]) :=
  only_method (c := fn% cfn "normalize") (by kernel_rfl) rfl rfl rfl find_normalize fun _ => (will_normalize reads_of).only
theorem o_isSCIM (p : Option Nat) (n : Nat) : (callClientT prog cprog X n "isSCIM" [.ptr "URN" p]).Only (Reads p ["kind"]) :=
  only_method (c := fn% cfn "isSCIM") (by kernel_rfl) rfl rfl rfl find_isScim fun _ => will_isSCIM fun a ha => reads_of a _ ha (by simp)
theorem o_scimOf (p : Option Nat) (n : Nat) : (callClientT prog cprog X n "scimOf" [.ptr "URN" p]).Only (Reads p ["kind", "scim"]) :=
  only_method (c := fn% cfn "scimOf") (by kernel_rfl) rfl rfl rfl find_scim fun _ => will_SCIM reads_of
theorem o_rfc (p : Option Nat) (n : Nat) : (callClientT prog cprog X n "rfc" [.ptr "URN" p]).Only (Reads p ["kind"]) :=
  only_method (c := fn% cfn "rfc") (by kernel_rfl) rfl rfl rfl find_rfc fun _ => only_call rfl rfl fun _ => only_get rfl
theorem o_rComponent (p : Option Nat) (n : Nat) : (callClientT prog cprog X n "rComponent" [.ptr "URN" p]).Only (Reads p ["rComponent"]) :=
  only_method (c := fn% cfn "rComponent") (by kernel_rfl) rfl rfl rfl find_r fun _ => only_call rfl rfl fun _ => only_get rfl
theorem o_qComponent (p : Option Nat) (n : Nat) : (callClientT prog cprog X n "qComponent" [.ptr "URN" p]).Only (Reads p ["qComponent"]) :=
  only_method (c := fn% cfn "qComponent") (by kernel_rfl) rfl rfl rfl find_q fun _ => only_call rfl rfl fun _ => only_get rfl
theorem o_fComponent (p : Option Nat) (n : Nat) : (callClientT prog cprog X n "fComponent" [.ptr "URN" p]).Only (Reads p ["fComponent"]) :=
  only_method (c := fn% cfn "fComponent") (by kernel_rfl) rfl rfl rfl find_f fun _ => only_call rfl rfl fun _ => only_get rfl

theorem o_equal (p q : Option Nat) (n : Nat) : (callClientT prog cprog X n "equal" [.ptr "URN" p, .ptr "URN" q]).Only fun x => Reads p ["ID", "norm"] x ∨ Reads q ["ID", "norm"] x := by
  rw [cl_startT (g := fn% cfn "equal") (env := [("p", .ptr "URN" p), ("q", .ptr "URN" q)]) (by kernel_rfl) rfl (by simp [bindParams, zero_urn, coerce])]
  refine only_ret (vs := [.ptr "URN" q]) rfl (method_urn find_equal) (fun n => ?_) fun n => will_equal (fun a f ha hf => .inl (reads_of a f ha hf)) fun a f ha hf => .inr (reads_of a f ha hf)
  simp only [evalsT, evalT, lookup, get, Res.some!, Io.bind_eq, Io.bind, Io.pure_eq]
  rfl

theorem o_getID (p : Option Nat) (n : Nat) : (callClientT prog cprog X n "getID" [.ptr "URN" p]).Only (Reads p ["ID"]) := by
  rw [cl_startT (g := fn% cfn "getID") (env := [("p", .ptr "URN" p)]) (by kernel_rfl) rfl (by simp [bindParams, zero_urn, coerce])]
  exact only_get rfl
theorem o_getSS (p : Option Nat) (n : Nat) : (callClientT prog cprog X n "getSS" [.ptr "URN" p]).Only (Reads p ["SS"]) := by
  rw [cl_startT (g := fn% cfn "getSS") (env := [("p", .ptr "URN" p)]) (by kernel_rfl) rfl (by simp [bindParams, zero_urn, coerce])]
  exact only_get rfl

/-- The accesses of an assignment to a field. -/
abbrev Sets (p : Option Nat) (f : String) (x : Access) : Prop := p = some x.cell ∧ x.write = true ∧ x.part = .field f

theorem o_setID (p : Option Nat) (v : Bytes) (n : Nat) : (callClientT prog cprog X n "setID" [.ptr "URN" p, .str v]).Only (Sets p "ID") := by
  rw [cl_startT (g := fn% cfn "setID") (env := [("p", .ptr "URN" p), ("v", .str v)]) (by kernel_rfl) rfl (by simp [bindParams, zero_urn, zero_string, coerce])]
  exact only_set rfl rfl
theorem o_setSS (p : Option Nat) (v : Bytes) (n : Nat) : (callClientT prog cprog X n "setSS" [.ptr "URN" p, .str v]).Only (Sets p "SS") := by
  rw [cl_startT (g := fn% cfn "setSS") (env := [("p", .ptr "URN" p), ("v", .str v)]) (by kernel_rfl) rfl (by simp [bindParams, zero_urn, zero_string, coerce])]
  exact only_set rfl rfl
theorem o_setType (p : Option Nat) (v : Int) (n : Nat) : (callClientT prog cprog X n "setType" [.ptr "SCIM" p, .int "Type" v]).Only (Sets p "Type") := by
  rw [cl_startT (g := fn% cfn "setType") (env := [("p", .ptr "SCIM" p), ("v", .int "Type" v)]) (by kernel_rfl) rfl (by simp [bindParams, zero_scim, zero_type, coerce])]
  exact only_set rfl rfl
theorem o_setName (p : Option Nat) (v : Bytes) (n : Nat) : (callClientT prog cprog X n "setName" [.ptr "SCIM" p, .str v]).Only (Sets p "Name") := by
  rw [cl_startT (g := fn% cfn "setName") (env := [("p", .ptr "SCIM" p), ("v", .str v)]) (by kernel_rfl) rfl (by simp [bindParams, zero_scim, zero_string, coerce])]
  exact only_set rfl rfl
theorem o_setOther (p : Option Nat) (v : Bytes) (n : Nat) : (callClientT prog cprog X n "setOther" [.ptr "SCIM" p, .str v]).Only (Sets p "Other") := by
  rw [cl_startT (g := fn% cfn "setOther") (env := [("p", .ptr "SCIM" p), ("v", .str v)]) (by kernel_rfl) rfl (by simp [bindParams, zero_scim, zero_string, coerce])]
  exact only_set rfl rfl

/-! ## One call -/

variable {M : Mem} {h : Heap} {U S : List Nat} {R : Regs}

theorem w_stringOf (p : Option Nat) (hp : ∀ a, p = some a → ∃ q tl u, h[a]? = some (.obj (urnValW q tl u))) (n : Nat) : callClient prog cprog X n "stringOf" [.ptr "URN" p] h ≠ .stuck := by
  cases p with
  | none => exact never_panic (N := 2) (p := .nilDeref) (by rw [cl_stringOf, string_nil]; rfl) n
  | some a =>
      obtain ⟨q, tl, u, ha⟩ := hp a rfl
      refine never_ok (N := 2) (r := ([.str u.string], h)) ?_ n
      rw [cl_stringOf, string_cell ha]
      simp [conv, zero_string, coerce]

theorem w_marshalJSON (p : Option Nat) (hp : ∀ a, p = some a → ∃ q tl u, h[a]? = some (.obj (urnValW q tl u))) (n : Nat) : callClient prog cprog X n "marshalJSON" [.ptr "URN" p] h ≠ .stuck := by
  cases p with
  | none => exact never_panic (cl_marshalJSON_nil (n := 0)) n
  | some a =>
      obtain ⟨q, tl, u, ha⟩ := hp a rfl
      obtain ⟨h', -, h1⟩ := cl_marshalJSON_cell (X := X) (n := 0) ha
      exact never_ok h1 n

theorem w_marshal8141 (p : Option Nat) (hp : ∀ a, p = some a → ∃ q tl u, h[a]? = some (.obj (urnValW q tl u))) (n : Nat) : callClient prog cprog X n "marshal8141" [.ptr "URN" p] h ≠ .stuck := by
  cases p with
  | none => exact never_panic (cl_marshal8141_nil (n := 0)) n
  | some a =>
      obtain ⟨q, tl, u, ha⟩ := hp a rfl
      obtain ⟨h', -, h1⟩ := cl_marshal8141_cell (X := X) (n := 0) ha
      exact never_ok h1 n

theorem w_copy (p q : Option Nat) (hp : ∀ a, p = some a → ∃ v, h[a]? = some (.obj v)) (hq : ∀ a, q = some a → ∃ v, h[a]? = some (.obj v)) (n : Nat) :
    callClient prog cprog X n "copyURN" [.ptr "URN" p, .ptr "URN" q] h ≠ .stuck ∧ callClient prog cprog X n "copySCIM" [.ptr "SCIM" p, .ptr "SCIM" q] h ≠ .stuck := by
  cases q with
  | none => exact ⟨never_panic (N := 1) (p := .nilDeref) (by rw [cl_copyURN]; rfl) n, never_panic (N := 1) (p := .nilDeref) (by rw [cl_copySCIM]; rfl) n⟩
  | some b =>
      obtain ⟨w, hb⟩ := hq b rfl
      cases p with
      | none =>
          exact ⟨never_panic (N := 1) (p := .nilDeref) (by rw [cl_copyURN]; simp [derefPtr, loadObj, hb, setDeref]) n,
            never_panic (N := 1) (p := .nilDeref) (by rw [cl_copySCIM]; simp [derefPtr, loadObj, hb, setDeref]) n⟩
      | some a =>
          obtain ⟨v, ha⟩ := hp a rfl
          exact ⟨never_ok (N := 1) (r := ([], h.set a (.obj w))) (by rw [cl_copyURN]; simp [derefPtr, loadObj, hb, setDeref, ha]) n,
            never_ok (N := 1) (r := ([], h.set a (.obj w))) (by rw [cl_copySCIM]; simp [derefPtr, loadObj, hb, setDeref, ha]) n⟩

theorem step_used (r : Sim M h U S) (hR : RegsFit R U S) (st : Step) (hf : st.Fits X) (n : Nat) :
    ∀ x, x ∈ (callClientT prog cprog X n (st.text (mapR U S R)).1 (st.text (mapR U S R)).2).log h → x.cell < h.length → UsedBy (st.uses R) U S x := by
  have hU : ∀ p, ∀ c, look U (R.urn p) = some c → ∃ q ∈ Place.urns (R.urn p), AddrOf U S c q := fun p c hc => by
    cases hp : R.urn p with
    | none => rw [hp] at hc; cases hc
    | some k => rw [hp] at hc; exact ⟨.urn k, by simp [Place.urns], hc⟩
  have hS : ∀ p, ∀ c, look S (R.scim p) = some c → ∃ q ∈ Place.scims (R.scim p), AddrOf U S c q := fun p c hc => by
    cases hp : R.scim p with
    | none => rw [hp] at hc; cases hc
    | some k => rw [hp] at hc; exact ⟨.scim k, by simp [Place.scims], hc⟩
  have cU : ∀ (keep : Nat → Bool) p, (∀ a, look U (R.urn p) = some a → keep a = true) → ∀ a, look U (R.urn p) = some a → ∃ q tl u, (mask keep h)[a]? = some (.obj (urnValW q tl u)) := fun keep p hk a ha => by
    rw [mask_in h (hk a ha)]
    cases hp : R.urn p with
    | none => rw [hp] at ha; cases ha
    | some k =>
        rw [hp] at ha
        obtain ⟨b, x, h1, -, tl, h2, -⟩ := r.lookU (hR.urn p k hp)
        cases (show some b = some a from h1.symm.trans ha)
        exact ⟨_, _, _, h2⟩
  have sS : ∀ (keep : Nat → Bool) p, (∀ a, look S (R.scim p) = some a → keep a = true) → ∀ a, look S (R.scim p) = some a → ∃ s, (mask keep h)[a]? = some (.obj (scimVal s)) := fun keep p hk a ha => by
    rw [mask_in h (hk a ha)]
    cases hp : R.scim p with
    | none => rw [hp] at ha; cases ha
    | some k =>
        rw [hp] at ha
        obtain ⟨b, s, h1, -, h2⟩ := r.lookS (hR.scim p k hp)
        cases (show some b = some a from h1.symm.trans ha)
        exact ⟨_, h2⟩
  have cS : ∀ p, ∃ M' S' k, Sim M' (mask (only (look S (R.scim p))) h) [] S' ∧ (∀ i, k = some i → i < S'.length) ∧ look S' k = look S (R.scim p) := fun p => by
    cases hp : look S (R.scim p) with
    | none => exact ⟨{}, [], none, Sim.empty _, by simp, rfl⟩
    | some b =>
        obtain ⟨s, hs⟩ := sS (only (some b)) p (fun a ha => by rw [hp] at ha; simp [only, ha]) b hp
        exact ⟨_, [b], some 0, sim_scim (s := s) hs, by simp, rfl⟩
  have kU : ∀ p a, look U (R.urn p) = some a → only (look U (R.urn p)) a = true := fun p a ha => by simp [only, ha]
  -- single fields
  have rd : ∀ {q : Option Nat} {ps : List Place} {fs : List String} {x : Access}, (∀ c, q = some c → ∃ p ∈ ps, AddrOf U S c p) → Reads q fs x → UsedBy (Place.reads ps fs) U S x :=
    fun hq ⟨h1, h2, f, h3, h4⟩ => by
      obtain ⟨p, hp, ha⟩ := hq _ h1
      exact ⟨⟨false, p, .field f⟩, List.mem_flatMap.2 ⟨p, hp, List.mem_map.2 ⟨f, h3, rfl⟩⟩, ha, .inr h4, fun e => by rw [h2] at e; cases e⟩
  have wr : ∀ {q : Option Nat} {ps : List Place} {f : String} {x : Access}, (∀ c, q = some c → ∃ p ∈ ps, AddrOf U S c p) → Sets q f x → UsedBy (Place.sets ps f) U S x :=
    fun hq ⟨h1, h2, h3⟩ => by
      obtain ⟨p, hp, ha⟩ := hq _ h1
      exact ⟨⟨true, p, .field _⟩, List.mem_map.2 ⟨p, hp, rfl⟩, ha, .inr h3, fun _ => rfl⟩
  -- whole structs
  have gt : ∀ {q : Option Nat} {ps : List Place} {f vs}, (∀ c, q = some c → ∃ p ∈ ps, AddrOf U S c p) → quietClients.contains f = true →
      (∀ n, callClient prog cprog X n f vs (mask (only q) h) ≠ .stuck) → ∀ x, x ∈ (callClientT prog cprog X n f vs).log h → x.cell < h.length → UsedBy (Place.gets ps) U S x :=
    fun hq hc hn x hx hl => by
      obtain ⟨p, hp, ha⟩ := hq _ (by simpa [only] using call_log hn n x hx hl)
      exact ⟨⟨false, p, .all⟩, List.mem_map.2 ⟨p, hp, rfl⟩, ha, .inl rfl, fun e => by rw [(quiet_call hc _).log x hx] at e; cases e⟩
  have ch : ∀ {q : Option Nat} {ps : List Place} {f vs}, (∀ c, q = some c → ∃ p ∈ ps, AddrOf U S c p) →
      (∀ n, callClient prog cprog X n f vs (mask (only q) h) ≠ .stuck) → ∀ x, x ∈ (callClientT prog cprog X n f vs).log h → x.cell < h.length → UsedBy (Place.changes ps) U S x :=
    fun hq hn x hx hl => by
      obtain ⟨p, hp, ha⟩ := hq _ (by simpa [only] using call_log hn n x hx hl)
      exact ⟨⟨true, p, .all⟩, List.mem_map.2 ⟨p, hp, rfl⟩, ha, .inl rfl, fun _ => rfl⟩
  have cp : ∀ {q q' : Option Nat} {ps ps' : List Place} {f vs}, (∀ c, q = some c → ∃ p ∈ ps, AddrOf U S c p) → (∀ c, q' = some c → ∃ p ∈ ps', AddrOf U S c p) →
      (∀ n, callClient prog cprog X n f vs (mask (fun c => only q c || only q' c) h) ≠ .stuck) →
      (∀ x, x ∈ (callClientT prog cprog X n f vs).log h → x.write = true → q = some x.cell) →
      ∀ x, x ∈ (callClientT prog cprog X n f vs).log h → x.cell < h.length → UsedBy (Place.changes ps ++ Place.gets ps') U S x :=
    fun {q q' ps ps' f vs} hq hq' hn hw x hx hl => by
      by_cases e : ∃ c, q = some c ∧ c = x.cell
      · obtain ⟨c, hc, rfl⟩ := e
        obtain ⟨p, hp, ha⟩ := hq _ hc
        exact ⟨⟨true, p, .all⟩, List.mem_append_left _ (List.mem_map.2 ⟨p, hp, rfl⟩), ha, .inl rfl, fun _ => rfl⟩
      · have hk : q' = some x.cell := by
          have := call_log hn n x hx hl
          simp only [only, Bool.or_eq_true, beq_iff_eq] at this
          exact this.resolve_left fun h => e ⟨_, h, rfl⟩
        obtain ⟨p, hp, ha⟩ := hq' _ hk
        exact ⟨⟨false, p, .all⟩, List.mem_append_right _ (List.mem_map.2 ⟨p, hp, rfl⟩), ha, .inl rfl, fun h => (e ⟨_, hw x hx h, rfl⟩).elim⟩
  have no : ∀ {f vs us}, (∀ n, callClient prog cprog X n f vs (mask (fun _ => false) h) ≠ .stuck) → ∀ x, x ∈ (callClientT prog cprog X n f vs).log h →
      x.cell < h.length → UsedBy us U S x := fun hn x hx hl => by
    cases call_log hn n x hx hl
  cases st <;> simp only [Step.text, Step.uses, mapR_urn, mapR_scim]
  case parse s modes => exact no (w_parse s hf modes)
  case newURN => exact no (step_good (X := X) (R := {}) (Sim.empty _) ⟨by simp, by simp⟩ .newURN trivial).never
  case newSCIM => exact no (step_good (X := X) (R := {}) (Sim.empty _) ⟨by simp, by simp⟩ .newSCIM trivial).never
  case unmarshal8141 p s => exact no (w_unmarshal8141 _ s hf)
  case getID p => exact fun x hx hl => rd (hU p) ((o_getID _ n).log x hx hl)
  case getSS p => exact fun x hx hl => rd (hU p) ((o_getSS _ n).log x hx hl)
  case setID p v => exact fun x hx hl => wr (hU p) ((o_setID _ v n).log x hx hl)
  case setSS p v => exact fun x hx hl => wr (hU p) ((o_setSS _ v n).log x hx hl)
  case normalize p => exact fun x hx hl => rd (hU p) ((o_normalize _ n).log x hx hl)
  case isSCIM p => exact fun x hx hl => rd (hU p) ((o_isSCIM _ n).log x hx hl)
  case rfc p => exact fun x hx hl => rd (hU p) ((o_rfc _ n).log x hx hl)
  case scimOf p => exact fun x hx hl => rd (hU p) ((o_scimOf _ n).log x hx hl)
  case rComponent p => exact fun x hx hl => rd (hU p) ((o_rComponent _ n).log x hx hl)
  case qComponent p => exact fun x hx hl => rd (hU p) ((o_qComponent _ n).log x hx hl)
  case fComponent p => exact fun x hx hl => rd (hU p) ((o_fComponent _ n).log x hx hl)
  case equal p q =>
    intro x hx hl
    rcases (o_equal _ _ n).log x hx hl with h1 | h1
    · exact rd (fun c hc => (hU p c hc).imp fun _ h => ⟨List.mem_append_left _ h.1, h.2⟩) h1
    · exact rd (fun c hc => (hU q c hc).imp fun _ h => ⟨List.mem_append_right _ h.1, h.2⟩) h1
  case stringOf p => exact gt (hU p) rfl (w_stringOf _ (cU _ p (kU p)))
  case marshalJSON p => exact gt (hU p) rfl (w_marshalJSON _ (cU _ p (kU p)))
  case marshal8141 p => exact gt (hU p) rfl (w_marshal8141 _ (cU _ p (kU p)))
  case unmarshalJSON p s => exact ch (hU p) (w_unmarshalJSON _ (fun a ha => (cU _ p (kU p) a ha).elim fun _ h => h.elim fun _ h => h.elim fun _ h => ⟨_, h⟩) s hf)
  case copyURN p q =>
    exact cp (hU p) (hU q) (fun n => (w_copy _ _ (fun a ha => (cU _ p (fun a ha => by simp [only, ha]) a ha).elim fun _ h => h.elim fun _ h => h.elim fun _ h => ⟨_, h⟩)
      (fun a ha => (cU _ q (fun a ha => by simp [only, ha]) a ha).elim fun _ h => h.elim fun _ h => h.elim fun _ h => ⟨_, h⟩) n).1) (copy_log _ _ n).1
  case copySCIM p q =>
    exact cp (hS p) (hS q) (fun n => (w_copy _ _ (fun a ha => (sS (fun c => only (look S (R.scim p)) c || only (look S (R.scim q)) c) p (fun a ha => by simp [only, ha]) a ha).elim fun _ h => ⟨_, h⟩)
      (fun a ha => (sS _ q (fun a ha => by simp [only, ha]) a ha).elim fun _ h => ⟨_, h⟩) n).2) (copy_log _ _ n).2
  case scimUnmarshalJSON p s => obtain ⟨M', S', k, r', hk, e⟩ := cS p; exact ch (hS p) (by rw [← e] at r' ⊢; exact (g_scimUnmarshalJSON r' hk p s hf).never)
  case scimString p => obtain ⟨M', S', k, r', hk, e⟩ := cS p; exact gt (hS p) rfl (by rw [← e] at r' ⊢; exact (g_scimString r' hk p).never)
  case scimMarshalJSON p => obtain ⟨M', S', k, r', hk, e⟩ := cS p; exact gt (hS p) rfl (by rw [← e] at r' ⊢; exact (g_scimMarshalJSON r' hk p).never)
  case scimFields p => obtain ⟨M', S', k, r', hk, e⟩ := cS p; exact gt (hS p) rfl (by rw [← e] at r' ⊢; exact (g_scimFields r' hk p).never)
  case setType p v => exact fun x hx hl => wr (hS p) ((o_setType _ v n).log x hx hl)
  case setName p v => exact fun x hx hl => wr (hS p) ((o_setName _ v n).log x hx hl)
  case setOther p v => exact fun x hx hl => wr (hS p) ((o_setOther _ v n).log x hx hl)

/-! ## Many calls -/

theorem UsedBy.mono {us vs : List Use} {x : Access} (hx : UsedBy us U S x) (hu : ∀ u ∈ us, u ∈ vs) : UsedBy vs U S x := by
  obtain ⟨u, h1, h2⟩ := hx
  exact ⟨u, hu u h1, h2⟩

theorem run_used (n : Nat) (ss : List Step) : (∀ s ∈ ss, s.Fits X) → ∀ {M : Mem} {h : Heap} {U S : List Nat} {R : Regs}, Sim M h U S → RegsFit R U S →
    ∀ x, x ∈ (runTextT prog cprog X n ss (mapR U S R)).log h → x.cell < h.length → UsedBy (uses X ss R M) U S x := by
  induction ss with
  | nil => intro _ M h U S R _ _ x hx; cases hx
  | cons s ss ih =>
      intro hf M h U S R r hR x hx hl
      have hfs := hf s (List.mem_cons_self ..)
      rw [runTextT, Io.bind_eq, log_bind] at hx
      rw [uses]
      rcases List.mem_append.1 hx with hx | hx
      · exact (step_used r hR s hfs n x hx hl).mono fun u hu => List.mem_append_left _ hu
      · have hs := (callClient_same prog cprog X n (s.text (mapR U S R)).1 (s.text (mapR U S R)).2 h)
        cases hr : (callClientT prog cprog X n (s.text (mapR U S R)).1 (s.text (mapR U S R)).2).run h with
        | ok y =>
            have hs : callClient prog cprog X n (s.text (mapR U S R)).1 (s.text (mapR U S R)).2 h = .ok y := hs.trans hr
            rw [hr] at hx
            dsimp only at hx
            have hg := step_good (X := X) r hR s hfs
            have mono := callClient_mono prog cprog X (s.text (mapR U S R)).1 (s.text (mapR U S R)).2 h
            cases ha : M.act X.uni X.json (s.act R) with
            | diverge => rw [ha] at hg; exact hg.elim
            | panic p => rw [ha] at hg; exact (Panics.not_ok mono hg hs).elim
            | ok z =>
                obtain ⟨M1, g⟩ := z
                rw [ha] at hg
                obtain ⟨U1, S1, h1, h2, h3, h4, h5, h6, h7, h8⟩ := hg
                cases Does.only mono h2 hs
                have hR1 := (hR.app U1 S1).add h4
                have hm : mapR (U ++ U1) (S ++ S1) (R.addGot g) = (mapR U S R).addVals (s.vals X (look (U ++ U1)) (look (S ++ S1)) g) := by
                  rw [h5 R, mapR_app hR]
                have hlen : h.length ≤ h1.length := run_grows _ _ _ _ hr
                rw [← hm, Io.bind_eq, log_bind] at hx
                rcases List.mem_append.1 hx with hx | hx
                · obtain ⟨u, hu, hq, hq'⟩ := ih (fun t ht => hf t (List.mem_cons_of_mem _ ht)) h3 hR1 x hx (by omega)
                  exact ⟨u, List.mem_append_right _ hu, hq.old hl h6 h7, hq'⟩
                · cases hr : (runTextT prog cprog X n ss (mapR (U ++ U1) (S ++ S1) (R.addGot g))).run h1 with
                  | ok y => rw [hr] at hx; cases hx
                  | _ => rw [hr] at hx; cases hx
        | _ => rw [hr] at hx; cases hx

theorem noConflict_uses (r : Sim M h U S) {cs : List (Regs × List Step)} (hR : ∀ c ∈ cs, RegsFit c.1 U S) (hf : ∀ c ∈ cs, ∀ s ∈ c.2, s.Fits X)
    (hsep : ∀ (i j : Nat) c d, i ≠ j → cs[i]? = some c → cs[j]? = some d → ∀ u ∈ uses X c.2 c.1 M, ∀ v ∈ uses X d.2 d.1 M, u.place = v.place → u.place.In M →
      u.part.Meets v.part → u.write = false ∧ v.write = false) (n : Nat) :
    NoConflict h (cs.map fun c => runTextT prog cprog X n c.2 (c.1.addr (look U) (look S))) := by
  apply noConflict_map
  intro i j c d x y hij hi hj hx hy hl hxy
  have hc := List.mem_of_getElem? hi
  have hd := List.mem_of_getElem? hj
  obtain ⟨hcell, hpart, hw⟩ := hxy
  obtain ⟨u, hu, ua, up, uw⟩ := run_used n c.2 (hf c hc) r (hR c hc) x hx hl
  obtain ⟨v, hv, va, vp, vw⟩ := run_used n d.2 (hf d hd) r (hR d hd) y hy (hcell ▸ hl)
  rw [← hcell] at va
  have hin : u.place.In M := by
    cases hp : u.place with
    | urn k => rw [hp] at ua; have := (List.getElem?_eq_some_iff.1 ua).1; rw [r.lenU] at this; exact this
    | scim k => rw [hp] at ua; have := (List.getElem?_eq_some_iff.1 ua).1; rw [r.lenS] at this; exact this
  have hm : u.part.Meets v.part := by
    rcases up with up | up
    · rw [up]; unfold Part.Meets; split <;> first | trivial | contradiction
    · rcases vp with vp | vp
      · rw [vp]; unfold Part.Meets; split <;> first | trivial | contradiction
      · rwa [← up, ← vp]
  obtain ⟨h1, h2⟩ := hsep i j c d hij hi hj u hu v hv (AddrOf.same r ua va) hin hm
  rcases hw with hw | hw
  · rw [uw hw] at h1; cases h1
  · rw [vw hw] at h2; cases h2
end
end Urn.GoLang
