import Verif.GoSem
/-!
# Facts about the interpreter

Nothing here depends on the program: sequences of statements, labels, blocks without labels, switches over numbers, and code
that only looks at one byte.
-/
set_option autoImplicit false
namespace Urn.GoLang

/-! ## Equality of syntax trees -/

mutual
def Expr.same : Expr → Expr → Bool
  | .id x, .id y => decide (x = y)
  | .num m, .num n => Nat.beq m n
  | .str a, .str b => decide (a = b)
  | .sel e f, .sel e' f' => decide (f = f') && Expr.same e e'
  | .index a b, .index a' b' => Expr.same a a' && Expr.same b b'
  | .slice a b c, .slice a' b' c' => Expr.same a a' && (Expr.same b b' && Expr.same c c')
  | .call f as s, .call f' as' s' => decide (s = s') && (Expr.same f f' && Exprs.same as as')
  | .un o e, .un o' e' => decide (o = o') && Expr.same e e'
  | .bin o a b, .bin o' a' b' => decide (o = o') && (Expr.same a a' && Expr.same b b')
  | .lit t es, .lit t' es' => decide (t = t') && Elems.same es es'
  | .conv t e, .conv t' e' => decide (t = t') && Expr.same e e'
  | _, _ => false
def Exprs.same : Exprs → Exprs → Bool
  | .nil, .nil => true
  | .cons e es, .cons e' es' => Expr.same e e' && Exprs.same es es'
  | _, _ => false
def Elems.same : Elems → Elems → Bool
  | .nil, .nil => true
  | .cons k e es, .cons k' e' es' => decide (k = k') && (Expr.same e e' && Elems.same es es')
  | _, _ => false
end

mutual
theorem Expr.same_eq : ∀ a b : Expr, Expr.same a b = true → a = b
  | .id _, b, h => by cases b <;> simp [Expr.same] at h; simp [h]
  | .num _, b, h => by cases b <;> simp [Expr.same] at h; simp [h]
  | .str _, b, h => by cases b <;> simp [Expr.same] at h; simp [h]
  | .sel e _, b, h => by
      cases b <;> simp [Expr.same] at h
      simp [h.1, Expr.same_eq e _ h.2]
  | .index a c, b, h => by
      cases b <;> simp [Expr.same] at h
      simp [Expr.same_eq a _ h.1, Expr.same_eq c _ h.2]
  | .slice a c d, b, h => by
      cases b <;> simp [Expr.same] at h
      simp [Expr.same_eq a _ h.1, Expr.same_eq c _ h.2.1, Expr.same_eq d _ h.2.2]
  | .call f as _, b, h => by
      cases b <;> simp [Expr.same] at h
      simp [h.1, Expr.same_eq f _ h.2.1, Exprs.same_eq as _ h.2.2]
  | .un _ e, b, h => by
      cases b <;> simp [Expr.same] at h
      simp [h.1, Expr.same_eq e _ h.2]
  | .bin _ a c, b, h => by
      cases b <;> simp [Expr.same] at h
      simp [h.1, Expr.same_eq a _ h.2.1, Expr.same_eq c _ h.2.2]
  | .lit _ es, b, h => by
      cases b <;> simp [Expr.same] at h
      simp [h.1, Elems.same_eq es _ h.2]
  | .conv _ e, b, h => by
      cases b <;> simp [Expr.same] at h
      simp [h.1, Expr.same_eq e _ h.2]
  | .func _ _ _, b, h => by cases b <;> simp [Expr.same] at h
theorem Exprs.same_eq : ∀ a b : Exprs, Exprs.same a b = true → a = b
  | .nil, b, h => by cases b <;> simp [Exprs.same] at h; rfl
  | .cons e es, b, h => by
      cases b <;> simp [Exprs.same] at h
      simp [Expr.same_eq e _ h.1, Exprs.same_eq es _ h.2]
theorem Elems.same_eq : ∀ a b : Elems, Elems.same a b = true → a = b
  | .nil, b, h => by cases b <;> simp [Elems.same] at h; rfl
  | .cons _ e es, b, h => by
      cases b <;> simp [Elems.same] at h
      simp [h.1, Expr.same_eq e _ h.2.1, Elems.same_eq es _ h.2.2]
end

mutual
def Stmt.same : Stmt → Stmt → Bool
  | .expr e, .expr e' => Expr.same e e'
  | .assign l e, .assign l' e' => Exprs.same l l' && Exprs.same e e'
  | .define xs e, .define xs' e' => decide (xs = xs') && Exprs.same e e'
  | .add l e, .add l' e' => Expr.same l l' && Expr.same e e'
  | .inc l, .inc l' => Expr.same l l'
  | .dec l, .dec l' => Expr.same l l'
  | .var x t, .var x' t' => decide (x = x') && decide (t = t')
  | .ret es, .ret es' => Exprs.same es es'
  | .if_ i c a b, .if_ i' c' a' b' => Stmts.same i i' && (Expr.same c c' && (Stmts.same a a' && Stmts.same b b'))
  | .range x e b, .range x' e' b' => decide (x = x') && (Expr.same e e' && Stmts.same b b')
  | .goto l, .goto l' => decide (l = l')
  | .label l, .label l' => decide (l = l')
  | .block b, .block b' => Stmts.same b b'
  | _, _ => false
def Stmts.same : Stmts → Stmts → Bool
  | .nil, .nil => true
  | .cons s ss, .cons s' ss' => Stmt.same s s' && Stmts.same ss ss'
  | _, _ => false
end

mutual
theorem Stmt.same_eq : ∀ a b : Stmt, Stmt.same a b = true → a = b
  | .expr e, b, h => by
      cases b <;> simp [Stmt.same] at h
      simp [Expr.same_eq e _ h]
  | .assign l e, b, h => by
      cases b <;> simp [Stmt.same] at h
      simp [Exprs.same_eq l _ h.1, Exprs.same_eq e _ h.2]
  | .define _ e, b, h => by
      cases b <;> simp [Stmt.same] at h
      simp [h.1, Exprs.same_eq e _ h.2]
  | .add l e, b, h => by
      cases b <;> simp [Stmt.same] at h
      simp [Expr.same_eq l _ h.1, Expr.same_eq e _ h.2]
  | .inc l, b, h => by
      cases b <;> simp [Stmt.same] at h
      simp [Expr.same_eq l _ h]
  | .dec l, b, h => by
      cases b <;> simp [Stmt.same] at h
      simp [Expr.same_eq l _ h]
  | .var _ _, b, h => by
      cases b <;> simp [Stmt.same] at h
      simp [h.1, h.2]
  | .ret es, b, h => by
      cases b <;> simp [Stmt.same] at h
      simp [Exprs.same_eq es _ h]
  | .if_ i c a d, b, h => by
      cases b <;> simp [Stmt.same] at h
      simp [Stmts.same_eq i _ h.1, Expr.same_eq c _ h.2.1, Stmts.same_eq a _ h.2.2.1, Stmts.same_eq d _ h.2.2.2]
  | .switch _ _, b, h => by cases b <;> simp [Stmt.same] at h
  | .cond _, b, h => by cases b <;> simp [Stmt.same] at h
  | .range _ e d, b, h => by
      cases b <;> simp [Stmt.same] at h
      simp [h.1, Expr.same_eq e _ h.2.1, Stmts.same_eq d _ h.2.2]
  | .goto _, b, h => by cases b <;> simp [Stmt.same] at h; simp [h]
  | .label _, b, h => by cases b <;> simp [Stmt.same] at h; simp [h]
  | .block d, b, h => by
      cases b <;> simp [Stmt.same] at h
      simp [Stmts.same_eq d _ h]
theorem Stmts.same_eq : ∀ a b : Stmts, Stmts.same a b = true → a = b
  | .nil, b, h => by cases b <;> simp [Stmts.same] at h; rfl
  | .cons s ss, b, h => by
      cases b <;> simp [Stmts.same] at h
      simp [Stmt.same_eq s _ h.1, Stmts.same_eq ss _ h.2]
end

/-! ## Sequences -/

def Stmts.append : Stmts → Stmts → Stmts
  | .nil, b => b
  | .cons s ss, b => .cons s (ss.append b)

/-- What is left of `s` after the statements of `pat`. -/
def strip : (pat s : Stmts) → Option Stmts
  | .nil, s => some s
  | .cons a as, .cons b bs => if Stmt.same a b then strip as bs else none
  | _, _ => none

theorem strip_eq : ∀ {pat s r : Stmts}, strip pat s = some r → s = pat.append r
  | .nil, _, _, h => by simpa [strip, Stmts.append] using h
  | .cons a as, .nil, _, h => by simp [strip] at h
  | .cons a as, .cons b bs, r, h => by
      simp only [strip] at h
      split at h
      · rename_i hs
        rw [Stmts.append, ← strip_eq h, Stmt.same_eq _ _ hs]
      · cases h

/-- The statements after a label. -/
def suffixAt : Stmts → String → Option Stmts
  | .nil, _ => none
  | .cons (.label l') ss, l => if l' = l then some ss else suffixAt ss l
  | .cons _ ss, l => suffixAt ss l

def noLabels : Stmts → Bool
  | .nil => true
  | .cons (.label _) _ => false
  | .cons _ ss => noLabels ss

section
variable {P : Prog} {X : Ext} {call : Call} {fuel : Nat}

theorem execs_append : ∀ (a b : Stmts) (st : State),
    execs P X call fuel (a.append b) st = (execs P X call fuel a st >>= fun r =>
      match r with
      | (.next, st) => execs P X call fuel b st
      | r => pure r)
  | .nil, b, st => by simp [Stmts.append, execs]
  | .cons s ss, b, st => by
      simp only [Stmts.append, execs]
      cases exec P X call fuel s st with
      | ok r =>
          obtain ⟨sg, st⟩ := r
          cases sg <;> simp [execs_append ss b]
      | panic p => simp
      | stuck => simp
      | more => simp

theorem entry_of_suffix : ∀ {b : Stmts} {l : String} {r : Stmts}, suffixAt b l = some r → ∀ st : State,
    entry P X call fuel b l st = some (execs P X call fuel r st)
  | .nil, _, _, h, _ => by simp [suffixAt] at h
  | .cons s ss, l, r, h, st => by
      cases s
      case label l' =>
        simp only [suffixAt] at h
        simp only [entry]
        split at h
        · rename_i hl
          cases h
          simp [hl]
        · rename_i hl
          simp only [hl, if_false]
          exact entry_of_suffix h st
      all_goals (simp only [suffixAt] at h; simp only [entry]; exact entry_of_suffix h st)

theorem entry_noLabels : ∀ {b : Stmts}, noLabels b = true → ∀ (l : String) (st : State),
    entry P X call fuel b l st = none
  | .nil, _, _, _ => by simp [entry]
  | .cons s ss, h, l, st => by
      cases s
      case label l' => simp [noLabels] at h
      all_goals (simp only [noLabels] at h; simp only [entry]; exact entry_noLabels h l st)

/-- A block without labels is just its statements. -/
theorem jumps_noLabels {b : Stmts} (h : noLabels b = true) (n : Nat) (r : Res (Sig × State)) :
    jumps (entry P X call fuel b) n r = r := by
  unfold jumps
  split
  · rw [entry_noLabels h]
  · rfl

theorem inScope_ok (st : State) (s : Sig) : inScope st.env.length (.ok (s, st)) = .ok (s, st) := by
  simp [inScope]

/-! ## Switches over numbers -/

/-- The body of the case with this number. -/
def findCase : Cases → Nat → Option Stmts
  | .nil, _ => none
  | .case (.num k) body cs, n => if Nat.beq k n then some body else findCase cs n
  | .case _ _ _, _ => none
  | .default _ _, _ => none

/-- All cases are numbers, none of them this one, and there is no default. -/
def noCase : Cases → Nat → Bool
  | .nil, _ => true
  | .case (.num k) _ cs, n => !Nat.beq k n && noCase cs n
  | _, _ => false

theorem common_const (t : String) : common t "" = some t := by
  unfold common
  split
  · rfl
  · simp

theorem execCases_find {t : String} {n : Nat} {st : State} : ∀ {cs : Cases} {body : Stmts}, findCase cs n = some body →
    execCases P X call fuel cs (.int t n) st =
      (inScope st.env.length (jumps (entry P X call fuel body) fuel (execs P X call fuel body st)) >>= fun r => pure (some r.1, r.2))
  | .nil, _, h => by simp [findCase] at h
  | .default _ _, _, h => by simp [findCase] at h
  | .case e b cs, body, h => by
      cases e <;> simp only [findCase] at h
      case num k =>
        simp only [execCases, eval, Res.ok_bind, one, eqVal, common_const, Option.map_some, Res.some!_some]
        split at h
        · rename_i hk
          have : k = n := Nat.eq_of_beq_eq_true hk
          subst this
          cases h
          simp
        · rename_i hk
          have : ((n : Int) == (k : Int)) = false := by
            rw [beq_eq_false_iff_ne]
            intro h'
            apply hk
            rw [Nat.beq_eq]
            omega
          rw [this]
          exact execCases_find h
      all_goals cases h

theorem execCases_none {t : String} {n : Nat} {st : State} : ∀ {cs : Cases}, noCase cs n = true →
    execCases P X call fuel cs (.int t n) st = .ok (none, st) ∧ execDefault P X call fuel cs st = .ok (.next, st)
  | .nil, _ => by simp [execCases, execDefault]
  | .default _ _, h => by simp [noCase] at h
  | .case e b cs, h => by
      cases e <;> simp only [noCase] at h
      case num k =>
        simp only [Bool.and_eq_true, Bool.not_eq_true'] at h
        simp only [execCases, execDefault, eval, Res.ok_bind, one, eqVal, common_const, Option.map_some, Res.some!_some]
        have : ((n : Int) == (k : Int)) = false := by
          rw [beq_eq_false_iff_ne]
          intro h'
          have : k = n := by omega
          subst this
          simp at h
        rw [this]
        exact execCases_none h.2
      all_goals cases h

/-! ## Code that looks at one byte

The cases of `switch m.cs` test the byte `m.data[m.p]` and jump. -/

/-- Conditions on a byte. -/
inductive Cond where
  | cmp (o : BinOp) (k : Nat)
  | rcmp (k : Nat) (o : BinOp)
  | and (a b : Cond)
  deriving DecidableEq, Repr

/-- Decisions; `fall` is the end of the code. -/
inductive Tree where
  | jump (l : String)
  | fall
  | ite (c : Cond) (a b : Tree)
  deriving DecidableEq, Repr

def cmpNat : BinOp → Nat → Nat → Bool
  | .eq, a, b => Nat.beq a b
  | .ne, a, b => !Nat.beq a b
  | .lt, a, b => Nat.ble (a + 1) b
  | .le, a, b => Nat.ble a b
  | .gt, a, b => Nat.ble (b + 1) a
  | .ge, a, b => Nat.ble b a
  | _, _, _ => false

def Cond.holds : Cond → Nat → Bool
  | .cmp o k, c => cmpNat o c k
  | .rcmp k o, c => cmpNat o k c
  | .and a b, c => a.holds c && b.holds c

def isCmp : BinOp → Bool
  | .eq | .ne | .lt | .le | .gt | .ge => true
  | _ => false

/-- Read a condition; `cur` is the expression that stands for the byte. -/
def toCond (cur : Expr) : Expr → Option Cond
  | .bin .and a b => do
      let a ← toCond cur a
      let b ← toCond cur b
      pure (.and a b)
  | .bin o (.num k) b => if isCmp o && Expr.same b cur then some (.rcmp k o) else none
  | .bin o a (.num k) => if isCmp o && Expr.same a cur then some (.cmp o k) else none
  | _ => none

/-- Put a tree at the ends. -/
def Tree.andThen : Tree → Tree → Tree
  | .jump l, _ => .jump l
  | .fall, k => k
  | .ite c a b, k => .ite c (a.andThen k) (b.andThen k)

def Tree.eval : Tree → Nat → Option String
  | .jump l, _ => some l
  | .fall, _ => none
  | .ite c a b, n => bif c.holds n then a.eval n else b.eval n

mutual
def toTreeS (cur : Expr) : Stmt → Option Tree
  | .goto l => some (.jump l)
  | .if_ .nil c a b => do
      let c ← toCond cur c
      let x ← toTree cur a
      let y ← toTree cur b
      if noLabels a && noLabels b then some (.ite c x y) else none
  | .switch e cs => do
      let d ← defaultTree cur cs
      if Expr.same e cur then switchTree cur cs d else none
  | .cond cs => do
      let d ← defaultTree cur cs
      condTree cur cs d
  | _ => none
/-- Read statements. -/
def toTree (cur : Expr) : Stmts → Option Tree
  | .nil => some .fall
  | .cons s ss => do
      let a ← toTreeS cur s
      let b ← toTree cur ss
      pure (a.andThen b)
def defaultTree (cur : Expr) : Cases → Option Tree
  | .nil => some .fall
  | .case _ _ cs => defaultTree cur cs
  | .default body _ => do
      let t ← toTree cur body
      if noLabels body then some t else none
def switchTree (cur : Expr) : Cases → Tree → Option Tree
  | .nil, d => some d
  | .default _ cs, d => switchTree cur cs d
  | .case (.num k) body cs, d => do
      let t ← toTree cur body
      let r ← switchTree cur cs d
      if noLabels body then some (.ite (.cmp .eq k) t r) else none
  | .case _ _ _, _ => none
def condTree (cur : Expr) : Cases → Tree → Option Tree
  | .nil, d => some d
  | .default _ cs, d => condTree cur cs d
  | .case e body cs, d => do
      let c ← toCond cur e
      let t ← toTree cur body
      let r ← condTree cur cs d
      if noLabels body then some (.ite c t r) else none
end

def sigOfTree : Option String → Sig
  | some l => .goto l
  | none => .next

theorem Tree.eval_andThen (c : Nat) : ∀ a b : Tree, (a.andThen b).eval c = (a.eval c).or (b.eval c)
  | .jump _, _ => rfl
  | .fall, _ => by simp [Tree.andThen, Tree.eval]
  | .ite k a b, d => by
      simp only [Tree.andThen, Tree.eval, cond_eq_ite]
      split
      · exact Tree.eval_andThen c a d
      · exact Tree.eval_andThen c b d

theorem binVal_cmp {w : Nat} {o : BinOp} (ho : isCmp o = true) (s t u : String) (hc : common s t = some u) (a b : Nat) :
    binVal w o (.int s a) (.int t b) = some (.bool (cmpNat o a b)) := by
  have he : ((a : Int) == (b : Int)) = Nat.beq a b := by
    rw [Bool.eq_iff_iff]
    simp [Nat.beq_eq]
    omega
  cases o <;> simp only [isCmp] at ho <;> (try cases ho) <;>
    simp only [binVal, eqVal, hc, Option.map_some, cmpNat, he, Option.some.injEq, Val.bool.injEq] <;>
    (try rw [Bool.eq_iff_iff]) <;> simp [Nat.ble_eq] <;> omega

section
variable {cur : Expr} {st : State} {c : Nat}

theorem toCond_eval (hcur : eval P X call cur st = .ok ([.int "byte" c], st)) :
    ∀ {e : Expr} {k : Cond}, toCond cur e = some k → eval P X call e st = .ok ([.bool (k.holds c)], st) := by
  intro e
  induction e using Expr.rec (motive_2 := fun _ => True) (motive_3 := fun _ => True)
      (motive_4 := fun _ => True) (motive_5 := fun _ => True) (motive_6 := fun _ => True) with
  | bin o a b iha ihb =>
      intro k h
      have hand : o ≠ .and → ∀ {o' : BinOp}, isCmp o' = true → o' ≠ .and ∧ o' ≠ .or := by
        intro _ o' h'; cases o' <;> simp [isCmp] at h' ⊢
      unfold toCond at h
      split at h
      · rename_i a' b' heq
        cases heq
        cases ha : toCond cur a with
        | none => simp [ha] at h
        | some x =>
        cases hb : toCond cur b with
        | none => simp [ha, hb] at h
        | some y =>
        simp [ha, hb] at h
        subst h
        simp only [eval, iha ha, Res.ok_bind, one, Cond.holds]
        cases x.holds c with
        | true => simp [ihb hb]
        | false => simp
      · rename_i o' k' b' hno heq
        cases heq
        split at h
        · rename_i hs
          simp only [Bool.and_eq_true] at hs
          cases h
          have hb := Expr.same_eq _ _ hs.2
          subst hb
          have hv := binVal_cmp (w := X.bits) hs.1 "" "byte" "byte" rfl k' c
          cases o <;> simp [isCmp] at hs <;>
            simp [eval, hcur, one, hv, Cond.holds]
        · cases h
      · rename_i o' k' b' hno hno2 heq
        cases heq
        split at h
        · rename_i hs
          simp only [Bool.and_eq_true] at hs
          cases h
          have hb := Expr.same_eq _ _ hs.2
          subst hb
          have hv := binVal_cmp (w := X.bits) hs.1 "byte" "" "byte" rfl c b'
          cases o <;> simp [isCmp] at hs <;>
            simp [eval, hcur, one, hv, Cond.holds]
        · cases h
      · cases h
  | _ => first | trivial | (intros; rename_i h; simp [toCond] at h)

theorem body_ok {body : Stmts} {sg : Sig} (hn : noLabels body = true)
    (h : execs P X call fuel body st = .ok (sg, st)) :
    inScope st.env.length (jumps (entry P X call fuel body) fuel (execs P X call fuel body st)) = .ok (sg, st) := by
  rw [jumps_noLabels hn, h, inScope_ok]

mutual
theorem toTreeS_exec (hcur : eval P X call cur st = .ok ([.int "byte" c], st)) :
    ∀ {s : Stmt} {t : Tree}, toTreeS cur s = some t → exec P X call fuel s st = .ok (sigOfTree (t.eval c), st)
  | .goto l, t, h => by
      simp [toTreeS] at h
      subst h
      simp [exec, Tree.eval, sigOfTree]
  | .if_ i k a b, t, h => by
      cases i
      case cons => simp [toTreeS] at h
      case nil =>
        simp only [toTreeS, Option.bind_eq_bind] at h
        rcases hk : toCond cur k with _ | k'
        · simp [hk] at h
        rcases ha : toTree cur a with _ | x
        · simp [hk, ha] at h
        rcases hb : toTree cur b with _ | y
        · simp [hk, ha, hb] at h
        simp only [hk, ha, hb, Option.bind_some] at h
        split at h
        · rename_i hn
          simp only [Bool.and_eq_true] at hn
          cases h
          simp only [exec, execs, Res.ok_bind, toCond_eval hcur hk, Tree.eval]
          cases k'.holds c with
          | true => simp only [body_ok hn.1 (toTree_execs hcur ha), inScope_ok, cond_true]
          | false => simp only [body_ok hn.2 (toTree_execs hcur hb), inScope_ok, cond_false]
        · cases h
  | .switch e cs, t, h => by
      simp only [toTreeS, Option.bind_eq_bind] at h
      rcases hd : defaultTree cur cs with _ | d
      · simp [hd] at h
      simp only [hd, Option.bind_some] at h
      split at h
      · rename_i hs
        simp only [exec, Expr.same_eq _ _ hs, hcur, Res.ok_bind, one]
        rcases switchTree_exec hcur h with h1 | ⟨h1, h2⟩
        · rw [h1]; rfl
        · rw [h1, h2]; simp [defaultTree_exec hcur hd]
      · cases h
  | .cond cs, t, h => by
      simp only [toTreeS, Option.bind_eq_bind] at h
      rcases hd : defaultTree cur cs with _ | d
      · simp [hd] at h
      simp only [hd, Option.bind_some] at h
      simp only [exec]
      rcases condTree_exec hcur h with h1 | ⟨h1, h2⟩
      · rw [h1]; rfl
      · rw [h1, h2]; simp [defaultTree_exec hcur hd]
  | .expr _, _, h => by simp [toTreeS] at h
  | .assign _ _, _, h => by simp [toTreeS] at h
  | .define _ _, _, h => by simp [toTreeS] at h
  | .add _ _, _, h => by simp [toTreeS] at h
  | .inc _, _, h => by simp [toTreeS] at h
  | .dec _, _, h => by simp [toTreeS] at h
  | .var _ _, _, h => by simp [toTreeS] at h
  | .ret _, _, h => by simp [toTreeS] at h
  | .range _ _ _, _, h => by simp [toTreeS] at h
  | .label _, _, h => by simp [toTreeS] at h
  | .block _, _, h => by simp [toTreeS] at h
theorem toTree_execs (hcur : eval P X call cur st = .ok ([.int "byte" c], st)) :
    ∀ {ss : Stmts} {t : Tree}, toTree cur ss = some t → execs P X call fuel ss st = .ok (sigOfTree (t.eval c), st)
  | .nil, t, h => by
      simp [toTree] at h
      subst h
      simp [execs, Tree.eval, sigOfTree]
  | .cons s ss, t, h => by
      simp only [toTree, Option.bind_eq_bind] at h
      rcases ha : toTreeS cur s with _ | a
      · simp [ha] at h
      rcases hb : toTree cur ss with _ | b
      · simp [ha, hb] at h
      simp [ha, hb] at h
      subst h
      simp only [execs, toTreeS_exec hcur ha, Res.ok_bind, Tree.eval_andThen]
      cases a.eval c with
      | none => simp [sigOfTree, toTree_execs hcur hb]
      | some l => simp [sigOfTree]
theorem defaultTree_exec (hcur : eval P X call cur st = .ok ([.int "byte" c], st)) :
    ∀ {cs : Cases} {t : Tree}, defaultTree cur cs = some t → execDefault P X call fuel cs st = .ok (sigOfTree (t.eval c), st)
  | .nil, t, h => by
      simp [defaultTree] at h
      subst h
      simp [execDefault, Tree.eval, sigOfTree]
  | .case _ _ cs, t, h => by
      simp only [defaultTree] at h
      simp only [execDefault]
      exact defaultTree_exec hcur h
  | .default body _, t, h => by
      simp only [defaultTree, Option.bind_eq_bind] at h
      rcases hb : toTree cur body with _ | b
      · simp [hb] at h
      simp only [hb, Option.bind_some] at h
      split at h
      · rename_i hn
        cases h
        simp only [execDefault]
        exact body_ok hn (toTree_execs hcur hb)
      · cases h
theorem switchTree_exec (hcur : eval P X call cur st = .ok ([.int "byte" c], st)) :
    ∀ {cs : Cases} {d t : Tree}, switchTree cur cs d = some t →
      execCases P X call fuel cs (.int "byte" c) st = .ok (some (sigOfTree (t.eval c)), st) ∨
      execCases P X call fuel cs (.int "byte" c) st = .ok (none, st) ∧ t.eval c = d.eval c
  | .nil, d, t, h => by
      simp [switchTree] at h
      subst h
      exact .inr ⟨by simp [execCases], rfl⟩
  | .default _ cs, d, t, h => by
      simp only [switchTree] at h
      simp only [execCases]
      exact switchTree_exec hcur h
  | .case e body cs, d, t, h => by
      cases e <;> simp only [switchTree] at h
      case num k =>
        rcases hb : toTree cur body with _ | b
        · simp [hb] at h
        rcases hr : switchTree cur cs d with _ | r
        · simp [hb, hr] at h
        simp only [hb, hr, Option.bind_eq_bind, Option.bind_some] at h
        split at h
        · rename_i hn
          cases h
          have he : ((c : Int) == (k : Int)) = Nat.beq c k := by
            rw [Bool.eq_iff_iff]
            simp [Nat.beq_eq]
            omega
          simp only [execCases, eval, Res.ok_bind, one, eqVal, common_const, Option.map_some, Res.some!_some, he, Tree.eval,
            Cond.holds, cmpNat]
          cases Nat.beq c k with
          | true => left; simp [body_ok hn (toTree_execs hcur hb)]
          | false => simpa using switchTree_exec hcur hr
        · cases h
      all_goals cases h
theorem condTree_exec (hcur : eval P X call cur st = .ok ([.int "byte" c], st)) :
    ∀ {cs : Cases} {d t : Tree}, condTree cur cs d = some t →
      execCases P X call fuel cs (.bool true) st = .ok (some (sigOfTree (t.eval c)), st) ∨
      execCases P X call fuel cs (.bool true) st = .ok (none, st) ∧ t.eval c = d.eval c
  | .nil, d, t, h => by
      simp [condTree] at h
      subst h
      exact .inr ⟨by simp [execCases], rfl⟩
  | .default _ cs, d, t, h => by
      simp only [condTree] at h
      simp only [execCases]
      exact condTree_exec hcur h
  | .case e body cs, d, t, h => by
      simp only [condTree] at h
      rcases hk : toCond cur e with _ | k
      · simp [hk] at h
      rcases hb : toTree cur body with _ | b
      · simp [hk, hb] at h
      rcases hr : condTree cur cs d with _ | r
      · simp [hk, hb, hr] at h
      simp only [hk, hb, hr, Option.bind_eq_bind, Option.bind_some] at h
      split at h
      · rename_i hn
        cases h
        simp only [execCases, toCond_eval hcur hk, Res.ok_bind, one, eqVal, Res.some!_some, Tree.eval]
        cases k.holds c with
        | true => left; simp [body_ok hn (toTree_execs hcur hb)]
        | false => simpa using condTree_exec hcur hr
      · cases h
end

end
end
end Urn.GoLang
