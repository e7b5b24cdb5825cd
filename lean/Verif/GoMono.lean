import Verif.GoSem
/-!
# The bound on calls and jumps does not matter

If a call of a function is done within a bound, then it is done with the same result within every greater bound.
-/
set_option autoImplicit false
set_option linter.unusedSectionVars false
namespace Urn.GoLang

/-- The same, or not yet done. -/
def Le {α : Type} (x y : Res α) : Prop := x = .more ∨ x = y

theorem Le.refl {α : Type} (x : Res α) : Le x x := .inr rfl

theorem Le.trans {α : Type} {x y z : Res α} (h1 : Le x y) (h2 : Le y z) : Le x z := by
  rcases h1 with rfl | rfl
  · exact .inl rfl
  · exact h2

theorem Le.bind {α β : Type} {x y : Res α} {f g : α → Res β} (h : Le x y) (hf : ∀ a, Le (f a) (g a)) : Le (x >>= f) (y >>= g) := by
  rcases h with rfl | rfl
  · exact .inl rfl
  · cases x with
    | ok a => exact hf a
    | panic p => exact .inr rfl
    | stuck => exact .inr rfl
    | more => exact .inl rfl

section
variable {P : Prog} {X : Ext} {c c' : Call} (hc : ∀ rs env b h, Le (c rs env b h) (c' rs env b h))
include hc

theorem callFn_mono (g : Fn) (recv : Option Val) (vs : List Val) (s : Bool) (h : Heap) :
    Le (callFn P c g recv vs s h) (callFn P c' g recv vs s h) := by
  unfold callFn
  refine .bind (.refl _) fun _ => ?_
  dsimp only
  split
  · exact hc _ _ _ _
  · exact hc _ _ _ _
  · exact .refl _

theorem callName_mono (f : String) (vs : List Val) (s : Bool) (st : State) :
    Le (callName P c f vs s st) (callName P c' f vs s st) := by
  unfold callName
  split
  · exact .bind (.refl _) fun _ => .bind (hc _ _ _ _) fun _ => .refl _
  · exact .refl _
  · exact .refl _
  · split
    · exact .refl _
    · split
      · exact .refl _
      · split
        · exact .refl _
        · exact .bind (.refl _) fun _ => .bind (callFn_mono hc _ _ _ _ _) fun _ => .refl _

mutual
theorem eval_mono : ∀ (e : Expr) (st : State), Le (eval P X c e st) (eval P X c' e st)
  | .id x, st => by simp only [eval]; exact .refl _
  | .num n, st => by simp only [eval]; exact .refl _
  | .str b, st => by simp only [eval]; exact .refl _
  | .sel e f, st => by simp only [eval]; exact .bind (eval_mono e st) fun _ => .refl _
  | .index e i, st => by
      simp only [eval]
      exact .bind (eval_mono e st) fun a => .bind (.refl _) fun _ => .bind (eval_mono i a.2) fun _ => .refl _
  | .slice e i j, st => by
      simp only [eval]
      exact .bind (eval_mono e st) fun a => .bind (.refl _) fun _ => .bind (eval_mono i a.2) fun b => .bind (eval_mono j b.2) fun _ => .refl _
  | .call e args s, st => by
      cases e with
      | id f =>
          simp only [eval]
          exact .bind (evals_mono args st) fun a => callName_mono hc _ _ _ _
      | sel e f =>
          have hm : ∀ (v : Val) (st : State), Le
              (method P st.heap v f >>= fun y => evals P X c args { st with heap := y.2.2 } >>= fun x =>
                callFn P c y.1 (some y.2.1) x.1 s x.2.heap >>= fun y => pure (y.1, { x.2 with heap := y.2 }))
              (method P st.heap v f >>= fun y => evals P X c' args { st with heap := y.2.2 } >>= fun x =>
                callFn P c' y.1 (some y.2.1) x.1 s x.2.heap >>= fun y => pure (y.1, { x.2 with heap := y.2 })) := fun v st =>
            .bind (.refl _) fun y => .bind (evals_mono args _) fun x => .bind (callFn_mono hc _ _ _ _ _) fun _ => .refl _
          cases e with
          | id p =>
              rw [eval.eq_def, eval.eq_def]
              dsimp only
              split
              · split
                · split
                  · rename_i b x
                    exact .bind (eval_mono b st) fun _ => .refl _
                  · exact .refl _
                · exact .bind (evals_mono args st) fun _ => .refl _
              · split
                · exact .bind (evals_mono args st) fun _ => callName_mono hc _ _ _ _
                · exact .bind (.refl _) fun v => hm v st
          | _ =>
              rw [eval.eq_def, eval.eq_def]
              dsimp only
              exact .bind (eval_mono _ st) fun a => .bind (.refl _) fun v => hm v a.2
      | _ => simp only [eval]; exact .refl _
  | .un .not e, st => by simp only [eval]; exact .bind (eval_mono e st) fun _ => .refl _
  | .un .deref e, st => by simp only [eval]; exact .bind (eval_mono e st) fun _ => .refl _
  | .un .addr e, st => by
      cases e with
      | lit t es =>
          cases t with
          | name t => simp only [eval]; exact .bind (evalElems_mono es st) fun _ => .refl _
          | _ => simp only [eval]; exact .refl _
      | _ => simp only [eval]; exact .refl _
  | .bin o a b, st => by
      rw [eval.eq_def, eval.eq_def]
      refine .bind (eval_mono a st) fun x => .bind (.refl _) fun v => ?_
      split
      · exact .refl _
      · exact eval_mono b _
      · exact .refl _
      · exact eval_mono b _
      · exact .bind (eval_mono b _) fun _ => .refl _
  | .lit t es, st => by
      cases t with
      | name t => simp only [eval]; exact .bind (evalElems_mono es st) fun _ => .refl _
      | slice t => simp only [eval]; exact .bind (evalElems_mono es st) fun _ => .refl _
      | _ => simp only [eval]; exact .refl _
  | .conv t e, st => by simp only [eval]; exact .bind (eval_mono e st) fun _ => .refl _
  | .func ps rs body, st => by simp only [eval]; exact .refl _
theorem evals_mono : ∀ (es : Exprs) (st : State), Le (evals P X c es st) (evals P X c' es st)
  | .nil, st => by simp only [evals]; exact .refl _
  | .cons e es, st => by
      simp only [evals]
      exact .bind (eval_mono e st) fun a => .bind (evals_mono es _) fun _ => .refl _
theorem evalElems_mono : ∀ (es : Elems) (st : State), Le (evalElems P X c es st) (evalElems P X c' es st)
  | .nil, st => by simp only [evalElems]; exact .refl _
  | .cons k e es, st => by
      simp only [evalElems]
      exact .bind (eval_mono e st) fun a => .bind (.refl _) fun _ => .bind (evalElems_mono es _) fun _ => .refl _
end

theorem store_mono (l : Expr) (v : Val) (st : State) : Le (store P X c l v st) (store P X c' l v st) := by
  unfold store
  split
  · exact .refl _
  · exact .bind (eval_mono hc _ _) fun _ => .refl _
  · exact .bind (eval_mono hc _ _) fun _ => .bind (.refl _) fun _ => .bind (eval_mono hc _ _) fun _ => .refl _
  · exact .bind (eval_mono hc _ _) fun _ => .refl _
  · exact .refl _

omit hc in
theorem inScope_mono {n : Nat} {x y : Res (Sig × State)} (h : Le x y) : Le (inScope n x) (inScope n y) := .bind h fun _ => .refl _

omit hc in
/-- The entries of a block: the same labels. -/
def LeE (f g : String → State → Option (Res (Sig × State))) : Prop := ∀ l st,
  (f l st = none ∧ g l st = none) ∨ ∃ x y, f l st = some x ∧ g l st = some y ∧ Le x y

omit hc in
theorem jumps_mono {f g : String → State → Option (Res (Sig × State))} (hf : LeE f g) : ∀ (m n : Nat) (x y : Res (Sig × State)), m ≤ n → Le x y →
    Le (jumps f m x) (jumps g n y)
  | m, n, x, y, hn, hx => by
      rcases hx with rfl | rfl
      · exact .inl (by cases m <;> rfl)
      · match x with
        | .ok (.goto l, st) =>
            rcases hf l st with ⟨h1, h2⟩ | ⟨a, b, h1, h2, h3⟩
            · exact .inr (by rw [jumps, jumps, h1, h2])
            · rw [jumps, jumps, h1, h2]
              cases m with
              | zero => exact .inl rfl
              | succ m =>
                  obtain ⟨n, rfl⟩ : ∃ k, n = k + 1 := ⟨n - 1, by omega⟩
                  exact jumps_mono hf m n a b (by omega) h3
        | .ok (.next, st) => exact .inr (by simp only [jumps])
        | .ok (.ret vs, st) => exact .inr (by simp only [jumps])
        | .panic p => exact .inr (by simp only [jumps])
        | .stuck => exact .inr (by simp only [jumps])
        | .more => exact .inl (by simp only [jumps])

omit hc in
theorem rangeLoop_mono {f g : Val → State → Res (Sig × State)} (hf : ∀ v st, Le (f v st) (g v st)) : ∀ (vs : List Val) (st : State),
    Le (rangeLoop f vs st) (rangeLoop g vs st)
  | [], st => .refl _
  | v :: vs, st => by
      rw [rangeLoop, rangeLoop]
      refine .bind (hf v st) fun a => ?_
      split
      · exact rangeLoop_mono hf vs _
      · exact .refl _

variable {m n : Nat} (hn : m ≤ n)
include hn

mutual
theorem exec_mono : ∀ (s : Stmt) (st : State), Le (exec P X c m s st) (exec P X c' n s st)
  | .expr e, st => by simp only [exec]; exact .bind (eval_mono hc e st) fun _ => .refl _
  | .assign l e, st => by
      rw [exec.eq_def, exec.eq_def]
      split
      · rename_i h; cases h
      · rename_i h; cases h
        exact .bind (evals_mono hc _ _) fun _ => .bind (.refl _) fun _ => .bind (store_mono hc _ _ _) fun _ => .refl _
      · exact .refl _
      all_goals contradiction
  | .define xs e, st => by simp only [exec]; exact .bind (evals_mono hc _ _) fun _ => .refl _
  | .add l e, st => by simp only [exec]; exact .bind (eval_mono hc _ _) fun _ => .bind (.refl _) fun _ => .bind (store_mono hc _ _ _) fun _ => .refl _
  | .inc l, st => by simp only [exec]; exact .bind (eval_mono hc _ _) fun _ => .bind (.refl _) fun _ => .bind (store_mono hc _ _ _) fun _ => .refl _
  | .dec l, st => by simp only [exec]; exact .bind (eval_mono hc _ _) fun _ => .bind (.refl _) fun _ => .bind (store_mono hc _ _ _) fun _ => .refl _
  | .var x t, st => by simp only [exec]; exact .refl _
  | .ret es, st => by simp only [exec]; exact .bind (evals_mono hc _ _) fun _ => .refl _
  | .if_ init e a b, st => by
      simp only [exec]
      refine inScope_mono (.bind (execs_mono init st) fun x => ?_)
      split
      · refine .bind (eval_mono hc _ _) fun y => ?_
        split
        · exact inScope_mono (jumps_mono (entry_mono a) _ _ _ _ hn (execs_mono a _))
        · exact inScope_mono (jumps_mono (entry_mono b) _ _ _ _ hn (execs_mono b _))
        · exact .refl _
      · exact .refl _
  | .switch e cs, st => by
      simp only [exec]
      refine .bind (eval_mono hc _ _) fun x => .bind (.refl _) fun v => .bind (execCases_mono cs _ _) fun y => ?_
      split
      · exact .refl _
      · exact execDefault_mono cs _
  | .cond cs, st => by
      simp only [exec]
      refine .bind (execCases_mono cs _ _) fun y => ?_
      split
      · exact .refl _
      · exact execDefault_mono cs _
  | .range x e body, st => by
      simp only [exec]
      refine .bind (eval_mono hc _ _) fun y => ?_
      split
      · exact rangeLoop_mono (fun v st => inScope_mono (jumps_mono (entry_mono body) _ _ _ _ hn (execs_mono body _))) _ _
      · exact .refl _
      · exact .refl _
  | .goto l, st => by simp only [exec]; exact .refl _
  | .label l, st => by simp only [exec]; exact .refl _
  | .block b, st => by simp only [exec]; exact inScope_mono (jumps_mono (entry_mono b) _ _ _ _ hn (execs_mono b _))
theorem execs_mono : ∀ (ss : Stmts) (st : State), Le (execs P X c m ss st) (execs P X c' n ss st)
  | .nil, st => by simp only [execs]; exact .refl _
  | .cons s ss, st => by
      simp only [execs]
      refine .bind (exec_mono s st) fun x => ?_
      split
      · exact execs_mono ss _
      · exact .refl _
theorem entry_mono : ∀ (ss : Stmts), LeE (entry P X c m ss) (entry P X c' n ss)
  | .nil => fun l st => .inl ⟨by simp only [entry], by simp only [entry]⟩
  | .cons s ss => fun l st => by
      rw [entry.eq_def, entry.eq_def]
      split
      · rename_i h; cases h
      · rename_i h; cases h
        split
        · exact .inr ⟨_, _, rfl, rfl, execs_mono ss _⟩
        · exact entry_mono ss _ _
      · rename_i h1 h2
        cases h2
        exact entry_mono ss _ _
theorem execCases_mono : ∀ (cs : Cases) (v : Val) (st : State), Le (execCases P X c m cs v st) (execCases P X c' n cs v st)
  | .nil, v, st => by simp only [execCases]; exact .refl _
  | .default b cs, v, st => by simp only [execCases]; exact execCases_mono cs v st
  | .case e body cs, v, st => by
      simp only [execCases]
      refine .bind (eval_mono hc _ _) fun x => .bind (.refl _) fun w => .bind (.refl _) fun y => ?_
      split
      · exact .bind (inScope_mono (jumps_mono (entry_mono body) _ _ _ _ hn (execs_mono body _))) fun _ => .refl _
      · exact execCases_mono cs v _
theorem execDefault_mono : ∀ (cs : Cases) (st : State), Le (execDefault P X c m cs st) (execDefault P X c' n cs st)
  | .nil, st => by simp only [execDefault]; exact .refl _
  | .case e b cs, st => by simp only [execDefault]; exact execDefault_mono cs st
  | .default body cs, st => by
      simp only [execDefault]
      exact inScope_mono (jumps_mono (entry_mono body) _ _ _ _ hn (execs_mono body _))
end
end

theorem callN_mono (P : Prog) (X : Ext) : ∀ (m n : Nat), m ≤ n → ∀ rs env b h, Le (callN P X m rs env b h) (callN P X n rs env b h)
  | 0, n, _, rs, env, b, h => .inl rfl
  | m + 1, n, hn, rs, env, b, h => by
      obtain ⟨n, rfl⟩ : ∃ k, n = k + 1 := ⟨n - 1, by omega⟩
      have ih := callN_mono P X m n (by omega)
      have hj := jumps_mono (entry_mono (P := P) (X := X) ih (by omega : m ≤ n) b) m n _ _ (by omega)
        (execs_mono (P := P) (X := X) ih (by omega : m ≤ n) b ⟨env, h⟩)
      rw [callN, callN]
      rcases hj with hj | hj
      · rw [hj]; exact .inl rfl
      · rw [hj]; exact .refl _

/-- More fuel does not change a result. -/
theorem callFn_fuel {P : Prog} {X : Ext} {m n : Nat} (hn : m ≤ n) {g : Fn} {recv : Option Val} {vs : List Val} {s : Bool} {h : Heap}
    {r : List Val × Heap} (he : callFn P (callN P X m) g recv vs s h = .ok r) : callFn P (callN P X n) g recv vs s h = .ok r := by
  rcases callFn_mono (P := P) (callN_mono P X m n hn) g recv vs s h with h1 | h1
  · rw [h1] at he; cases he
  · rw [← h1]; exact he

end Urn.GoLang
