import Verif.GoActs2
/-!
# The loop in the text and the steps of the model
-/
set_option autoImplicit false
set_option linter.unusedSimpArgs false
namespace Urn.GoLang
open Tables (Act)

theorem noLabels_append : ∀ {a b : Stmts}, noLabels a = true → noLabels b = true → noLabels (a.append b) = true
  | .nil, _, _, hb => hb
  | .cons s ss, b, ha, hb => by
      cases s
      case label l => simp [noLabels] at ha
      all_goals (simp only [noLabels] at ha; simp only [Stmts.append, noLabels]; exact noLabels_append ha hb)

theorem noLabels_act (a : Act) : noLabels (actStmts a) = true := by cases a <;> rfl

theorem noLabels_acts : ∀ as : List Act, noLabels (actsStmts as) = true
  | [] => rfl
  | a :: as => noLabels_append (noLabels_act a) (noLabels_acts as)

theorem noLabels_tree {cur : Expr} : ∀ {ss : Stmts} {t : Tree}, toTree cur ss = some t → noLabels ss = true
  | .nil, _, _ => rfl
  | .cons s ss, t, h => by
      simp only [toTree, Option.bind_eq_bind] at h
      rcases ha : toTreeS cur s with _ | a
      · simp [ha] at h
      · rcases hb : toTree cur ss with _ | b
        · simp [ha, hb] at h
        · have ih := noLabels_tree hb
          cases s
          case label l => simp [toTreeS] at ha
          all_goals (simp only [noLabels]; exact ih)

theorem c_toState : get "_toStateActions" prog.consts = some (.list (Tables.toStateActions.map fun (k : Nat) => .int "byte" (k : Int))) := by
  kernel_rfl
theorem c_eof : get "_eofActions" prog.consts = some (.list (Tables.eofActions.map fun (k : Nat) => .int "byte" (k : Int))) := by
  kernel_rfl

/-- The labels of the loop. -/
def ctlLabel : Ctl → String
  | .resume => "_resume"
  | .again => "_again"
  | .testEof => "_testEof"
  | .out => "_out"

section
variable {X : Ext} {c F : Nat} {h0 h : Heap} {L : Locs} {sp : Option Nat} {m : Machine} {o : URN}

/-- Jump to a label of the block. -/
theorem jump {l : String} {r : Stmts} (hl : suffixAt parseBlock l = some r) (call : Call) (n : Nat) (st : State) :
    jumps (entry prog X call F parseBlock) (n + 1) (.ok (.goto l, st)) =
      jumps (entry prog X call F parseBlock) n (execs prog X call F r st) := by
  rw [jumps]
  simp only [entry_of_suffix hl]

/-- `m.cs = k` -/
theorem exec_cs {call : Call} (r : RepAt h0 h L sp m o) (k : Nat) :
    ∃ h', exec prog X call F (asg (mSel "cs") (.num k)) ⟨envOf L, h⟩ = .ok (.next, ⟨envOf L, h'⟩) ∧
      RepAt h0 h' L sp { m with cs := k } o := by
  refine ⟨_, ?_, r.set_mach (m' := { m with cs := k }) rfl⟩
  have hm := r.mach
  simp [exec, evals, eval, store, one, lookup, envOf, get, field, setField, loadObj, hm, machVal, set, coerce]

theorem eval_cs {call : Call} (r : RepAt h0 h L sp m o) :
    eval prog X call (mSel "cs") ⟨envOf L, h⟩ = .ok ([.int "int" m.cs], ⟨envOf L, h⟩) := by
  simp [eval, lookup, envOf, one, field, loadObj, r.mach, machVal, get]

theorem eval_eof {call : Call} (r : RepAt h0 h L sp m o) :
    eval prog X call (mSel "eof") ⟨envOf L, h⟩ = .ok ([.int "int" m.eof], ⟨envOf L, h⟩) := by
  simp [eval, lookup, envOf, one, field, loadObj, r.mach, machVal, get]

/-- `m.data[m.p]` -/
theorem eval_cur {call : Call} {ch : UInt8} (r : RepAt h0 h L sp m o) (hi : index m.data m.p = .ok ch) :
    eval prog X call curExpr ⟨envOf L, h⟩ = .ok ([.int "byte" ch.toNat], ⟨envOf L, h⟩) := by
  have hiv := Buf.index_val r.buf hi
  rw [r.len] at hiv
  unfold curExpr
  rw [eval]
  simp only [eval_data (X := X) (call := call) r (env := envOf L) rfl, eval_p (X := X) (call := call) r (env := envOf L) rfl,
    Res.ok_bind, one, hiv, Res.pure_eq]

/-- `switch` with a number that has a case. -/
theorem exec_switch {call : Call} {e : Expr} {cs : Cases} {k : Nat} {t : String} {body : Stmts} {sg : Sig} {env : Env} {h' : Heap}
    (he : eval prog X call e ⟨env, h⟩ = .ok ([.int t k], ⟨env, h⟩)) (hf : findCase cs k = some body) (hn : noLabels body = true)
    (hb : execs prog X call F body ⟨env, h⟩ = .ok (sg, ⟨env, h'⟩)) :
    exec prog X call F (.switch e cs) ⟨env, h⟩ = .ok (sg, ⟨env, h'⟩) := by
  rw [exec]
  simp only [he, Res.ok_bind, one, execCases_find hf, jumps_noLabels hn, hb, inScope_env, Res.pure_eq]

theorem exec_switch_none {call : Call} {e : Expr} {cs : Cases} {k : Nat} {t : String} {env : Env}
    (he : eval prog X call e ⟨env, h⟩ = .ok ([.int t k], ⟨env, h⟩)) (hf : noCase cs k = true) :
    exec prog X call F (.switch e cs) ⟨env, h⟩ = .ok (.next, ⟨env, h⟩) := by
  rw [exec]
  simp only [he, Res.ok_bind, one, (execCases_none hf).1]
  exact (execCases_none (t := t) hf).2

/-! ## The states stay in the tables -/

theorem target_lt {n : Nat} (hn : n < 250) : (Tables.trRow n).1 < 194 := by
  have h : (List.range 250).all (fun n => Nat.blt (Tables.trRow n).1 194) = true := by decide +kernel
  have h1 := List.all_eq_true.1 h n (List.mem_range.2 hn)
  exact Nat.le_of_ble_eq_true h1

theorem act_cs {a : Act} {m m' : Machine} {o o' : URN} {fl : Flow} (he : execActBits X.bits a m o = .ok (fl, m', o')) :
    m'.cs = m.cs ∨ m'.cs = Tables.enFail := by
  cases a <;> simp only [execActBits, execAct, raiseBits, bind, Except.bind, pure, Except.pure] at he <;> (repeat' split at he) <;>
    first
    | (simp only [Except.ok.injEq, Prod.mk.injEq] at he; obtain ⟨_, rfl, _⟩ := he; simp)
    | cases he

theorem acts_cs : ∀ {as : List Act} {m m' : Machine} {o o' : URN} {fl : Flow}, execActsBits X.bits as m o = .ok (fl, m', o') →
    m'.cs = m.cs ∨ m'.cs = Tables.enFail
  | [], m, m', o, o', fl, he => by cases he; exact .inl rfl
  | a :: as, m, m', o, o', fl, he => by
      unfold execActsBits at he
      cases h1 : execActBits X.bits a m o with
      | error p => simp [h1, bind, Except.bind] at he
      | ok x =>
          obtain ⟨fl1, m1, o1⟩ := x
          simp only [h1, bind, Except.bind] at he
          have h2 := act_cs h1
          cases fl1 with
          | again => cases he; exact h2
          | next =>
              rcases acts_cs he with h3 | h3
              · rw [h3]; exact h2
              · exact .inr h3

theorem enFail_lt : Tables.enFail < 194 := by decide

theorem cs_lt_of {m m' : Machine} (h : m.cs < 194) (h1 : m'.cs = m.cs ∨ m'.cs = Tables.enFail) : m'.cs < 194 := by
  have := enFail_lt
  rcases h1 with h1 | h1 <;> omega

/-! ## Steps -/

/-- From a label of the loop to the next one. -/
def StepSim (X : Ext) (c F : Nat) (h0 : Heap) (L : Locs) (s s' : St) (h : Heap) : Prop :=
  s'.m.cs < 194 ∧ ∃ h' k j, k ≤ 3 ∧ Rep h0 h' L s'.m s'.o ∧ ∀ n,
    jumps (entry prog X (callN prog X (c + 1)) F parseBlock) (n + k) (.ok (.goto (ctlLabel s.ctl), ⟨envOf L, h⟩)) =
      jumps (entry prog X (callN prog X (c + 1)) F parseBlock) (n + j) (.ok (.goto (ctlLabel s'.ctl), ⟨envOf L, h'⟩))

theorem step_resume {s' : St} (r : Rep h0 h L m o) (hcs : m.cs < 194) (hq : L.ro = true → stepWrites X.bits L.see.no ⟨.resume, m, o⟩ = false)
    (hs : stepBits X.bits ⟨.resume, m, o⟩ = .ok s') :
    StepSim X c F h0 L ⟨.resume, m, o⟩ s' h := by
  obtain ⟨sp, r⟩ := r
  unfold stepBits at hs
  unfold stepWrites at hq
  cases hi : index m.data m.p with
  | error p => simp [hi, bind, Except.bind] at hs
  | ok ch =>
      simp only [hi, bind, Except.bind, Tables.dispatch] at hs
      simp only [hi, Tables.dispatch] at hq
      by_cases h0' : m.cs = 0
      · simp only [h0', if_true, pure, Except.pure, Except.ok.injEq] at hs
        subst hs
        refine ⟨hcs, h, 1, 0, by omega, ⟨sp, r⟩, fun n => ?_⟩
        obtain ⟨body, t, h1, h2, h3⟩ := state_zero
        have e := toTree_execs (P := prog) (X := X) (call := callN prog X (c + 1)) (fuel := F) (eval_cur r hi) h2
        rw [h3] at e
        have hc := eval_cs (X := X) (call := callN prog X (c + 1)) r
        rw [h0'] at hc
        simp only [ctlLabel]
        rw [jump suffix_resume, execs_goto (exec_switch hc h1 (noLabels_tree h2) e)]
        rfl
      · simp only [h0', if_false] at hs hq
        obtain ⟨body, t, h1, h2, h3⟩ := state_case h0' hcs
        obtain ⟨h3, h4⟩ := h3 ch
        have e := toTree_execs (P := prog) (X := X) (call := callN prog X (c + 1)) (fuel := F) (eval_cur r hi) h2
        rw [h3] at e
        have hc := eval_cs (X := X) (call := callN prog X (c + 1)) r
        have j1 : ∀ n, jumps (entry prog X (callN prog X (c + 1)) F parseBlock) (n + 1) (.ok (.goto "_resume", ⟨envOf L, h⟩)) =
            jumps (entry prog X (callN prog X (c + 1)) F parseBlock) n (.ok (.goto (trName (Tables.trOf m.cs ch)), ⟨envOf L, h⟩)) := by
          intro n
          rw [jump suffix_resume, execs_goto (exec_switch hc h1 (noLabels_tree h2) e)]
        obtain ⟨k1, e1, r1⟩ := exec_cs (X := X) (F := F) (call := callN prog X (c + 1)) r (Tables.trRow (Tables.trOf m.cs ch)).1
        obtain ⟨rest, hrest⟩ := tr_label h4
        have j2 : ∀ n, jumps (entry prog X (callN prog X (c + 1)) F parseBlock) (n + 1)
              (.ok (.goto (trName (Tables.trOf m.cs ch)), ⟨envOf L, h⟩)) =
            jumps (entry prog X (callN prog X (c + 1)) F parseBlock) n
              (.ok (.goto (fLabel (Tables.trRow (Tables.trOf m.cs ch)).2), ⟨envOf L, k1⟩)) := by
          intro n
          rw [jump hrest, execs_next e1, execs_goto (l := fLabel (Tables.trRow (Tables.trOf m.cs ch)).2)]
          simp only [exec]
        have ht := target_lt h4
        cases hf : (Tables.trRow (Tables.trOf m.cs ch)).2 with
        | none =>
            simp only [hf, pure, Except.pure, Except.ok.injEq] at hs
            subst hs
            refine ⟨ht, k1, 2, 0, by omega, ⟨sp, r1⟩, fun n => ?_⟩
            rw [hf] at j2
            simp only [ctlLabel]
            rw [j1, j2]
            rfl
        | some f =>
            simp only [hf] at hs hq
            cases ha : execActsBits X.bits (Tables.fActs f) { m with cs := (Tables.trRow (Tables.trOf m.cs ch)).1 } o with
            | error p => simp [ha] at hs
            | ok x =>
                obtain ⟨fl, m1, o1⟩ := x
                simp only [ha, pure, Except.pure, Except.ok.injEq] at hs
                subst hs
                obtain ⟨k2, e2, r2⟩ := acts_sim (X := X) (c := c) (fuel := F) _ _ _ _ _ _ _ ⟨sp, r1⟩ hq ha
                refine ⟨cs_lt_of (m := { m with cs := (Tables.trRow (Tables.trOf m.cs ch)).1 }) ht (acts_cs ha), k2, 3, 0, by omega, r2,
                  fun n => ?_⟩
                obtain ⟨rest2, hrest2⟩ := f_label h4 hf
                rw [hf] at j2
                simp only [ctlLabel]
                rw [j1, j2]
                simp only [fLabel]
                rw [jump hrest2, execs_append, e2]
                cases fl <;> simp [sigOf, execs, exec]

theorem eval_list {call : Call} {x : String} {l : List Nat} {k : Nat} (r : RepAt h0 h L sp m o)
    (hx : lookup prog (envOf L) x = some (.list (l.map fun (k : Nat) => .int "byte" (k : Int)))) (hk : l[m.cs]? = some k) :
    eval prog X call (.index (.id x) (mSel "cs")) ⟨envOf L, h⟩ = .ok ([.int "byte" k], ⟨envOf L, h⟩) := by
  rw [eval]
  simp only [eval_var (X := X) (call := call) (h := h) hx, eval_cs (X := X) (call := call) r, Res.ok_bind, one, indexVal]
  simp [hk]

theorem step_testEof {s' : St} (r : Rep h0 h L m o) (hcs : m.cs < 194) (hq : L.ro = true → stepWrites X.bits L.see.no ⟨.testEof, m, o⟩ = false)
    (hs : stepBits X.bits ⟨.testEof, m, o⟩ = .ok s') :
    StepSim X c F h0 L ⟨.testEof, m, o⟩ s' h := by
  obtain ⟨sp, r⟩ := r
  unfold stepBits at hs
  have hc : eval prog X (callN prog X (c + 1)) (.bin .eq (mSel "p") (mSel "eof")) ⟨envOf L, h⟩ =
      .ok ([.bool (decide (m.p = m.eof))], ⟨envOf L, h⟩) :=
    eval_bin (op := .eq) ⟨by decide, by decide⟩ (eval_p r rfl) (eval_eof r) (by rfl)
  have hb : exec prog X (callN prog X (c + 1)) F (.block .nil) ⟨envOf L, h⟩ = .ok (.next, ⟨envOf L, h⟩) := by
    simp only [exec, execs]
    rw [jumps_noLabels rfl, inScope_env _ _ rfl]
  have hl : ∀ st, exec prog X (callN prog X (c + 1)) F (.label "_out") st = .ok (.next, st) := by
    intro st; simp only [exec]
  simp only at hs
  unfold stepWrites at hq
  simp only at hq
  split at hs
  · rename_i hcond
    rw [decide_eq_true hcond] at hc
    rw [if_pos hcond] at hq
    cases hk : Tables.eofActions[m.cs]? with
    | none => simp [hk] at hs
    | some k =>
        simp only [hk, bind, Except.bind] at hs
        simp only [hk] at hq
        have hv : eval prog X (callN prog X (c + 1)) (.index (.id "_eofActions") (mSel "cs")) ⟨envOf L, h⟩ =
            .ok ([.int "byte" k], ⟨envOf L, h⟩) :=
          eval_list r (by have : get "_eofActions" (envOf L) = none := rfl
                          simp only [lookup, this, c_eof]) hk
        cases ha : execActsBits X.bits (Tables.eofActs k) m o with
        | error p => simp [ha] at hs
        | ok x =>
            obtain ⟨fl, m1, o1⟩ := x
            simp only [ha] at hs
            obtain ⟨k1, e1, r1⟩ := acts_sim (X := X) (c := c) (fuel := F) _ _ _ _ _ _ _ ⟨sp, r⟩ hq ha
            have hcs1 := cs_lt_of hcs (acts_cs ha)
            -- the switch
            have hsw : exec prog X (callN prog X (c + 1)) F (.switch (.index (.id "_eofActions") (mSel "cs")) eofCases) ⟨envOf L, h⟩ =
                .ok (sigOf fl, ⟨envOf L, k1⟩) := by
              rcases eof_case (List.mem_of_getElem? hk) with ⟨hk0, hno⟩ | hfind
              · subst hk0
                have he0 : Tables.eofActs 0 = [] := by rfl
                rw [he0] at ha e1
                cases ha
                simp only [actsStmts, execs, Res.ok.injEq, Prod.mk.injEq, State.mk.injEq, true_and] at e1
                rw [exec_switch_none hv hno, e1.2]
                rfl
              · exact exec_switch hv hfind (noLabels_acts _) e1
            cases fl with
            | again =>
                simp only [pure, Except.pure, Except.ok.injEq] at hs
                subst hs
                refine ⟨hcs1, k1, 1, 0, by omega, r1, fun n => ?_⟩
                simp only [ctlLabel]
                rw [jump suffix_testEof, eofStmts, execs_next hb, execs_goto (exec_if_true rfl hc (execs_goto hsw))]
                rfl
            | next =>
                simp only [pure, Except.pure, Except.ok.injEq] at hs
                subst hs
                refine ⟨hcs1, k1, 1, 1, by omega, r1, fun n => ?_⟩
                simp only [ctlLabel]
                have hif := exec_if_true (b := .nil) rfl hc
                  (show execs prog X (callN prog X (c + 1)) F (.cons (.switch (.index (.id "_eofActions") (mSel "cs")) eofCases) .nil)
                    ⟨envOf L, h⟩ = .ok (.next, ⟨envOf L, k1⟩) by rw [execs_next hsw]; simp only [execs])
                rw [jump suffix_testEof, eofStmts, execs_next hb, execs_next hif, execs_next (hl _), jump suffix_out]
  · rename_i hcond
    rw [decide_eq_false hcond] at hc
    simp only [pure, Except.pure, Except.ok.injEq] at hs
    subst hs
    refine ⟨hcs, h, 1, 1, by omega, ⟨sp, r⟩, fun n => ?_⟩
    simp only [ctlLabel]
    rw [jump suffix_testEof, eofStmts, execs_next hb, execs_next (exec_ifS_false hc), execs_next (hl _), jump suffix_out]

theorem step_again {s' : St} (r : Rep h0 h L m o) (hcs : m.cs < 194) (hs : stepBits X.bits ⟨.again, m, o⟩ = .ok s') :
    StepSim X c F h0 L ⟨.again, m, o⟩ s' h := by
  obtain ⟨sp, r⟩ := r
  unfold stepBits at hs
  simp only at hs
  have hmem : ∀ k ∈ Tables.toStateActions, k = 0 ∨ k = 33 := by decide +kernel
  cases hk : Tables.toStateActions[m.cs]? with
  | none => simp [hk] at hs
  | some k =>
      have hv : eval prog X (callN prog X (c + 1)) (.index (.id "_toStateActions") (mSel "cs")) ⟨envOf L, h⟩ =
          .ok ([.int "byte" k], ⟨envOf L, h⟩) :=
        eval_list r (by have : get "_toStateActions" (envOf L) = none := rfl
                        simp only [lookup, this, c_toState]) hk
      rcases hmem k (List.mem_of_getElem? hk) with rfl | rfl
      · simp only [hk] at hs
        have hsw := exec_switch_none (X := X) (F := F) (cs := .case (.num 33) (actStmts .informalNidMatch) .nil) hv (by rfl)
        have hc0 : eval prog X (callN prog X (c + 1)) (.bin .eq (mSel "cs") (.num 0)) ⟨envOf L, h⟩ =
            .ok ([.bool (decide ((m.cs : Int) = 0))], ⟨envOf L, h⟩) :=
          eval_bin (op := .eq) ⟨by decide, by decide⟩ (eval_cs r) (y := .int "" 0) (by simp only [eval]; rfl) (by rfl)
        by_cases hz : m.cs = 0
        · simp only [hz, if_true, pure, Except.pure, Except.ok.injEq] at hs
          subst hs
          refine ⟨hcs, h, 1, 0, by omega, ⟨sp, r⟩, fun n => ?_⟩
          rw [hz] at hc0
          have hg : exec prog X (callN prog X (c + 1)) F (.goto "_out") ⟨envOf L, h⟩ = .ok (.goto "_out", ⟨envOf L, h⟩) := by
            simp only [exec]
          simp only [ctlLabel]
          rw [jump suffix_again, againStmts, execs_next hsw, execs_goto (exec_if_true rfl hc0 (execs_goto hg))]
          rfl
        · have hz' : ¬ ((m.cs : Int) = 0) := by omega
          rw [decide_eq_false hz'] at hc0
          simp only [hz, if_false] at hs
          -- p++
          have hinc : exec prog X (callN prog X (c + 1)) F (.inc (mSel "p")) ⟨envOf L, h⟩ =
              .ok (.next, ⟨envOf L, h.set L.am (.obj (machVal (L.buf.val L.len) { m with p := wrap X.bits (m.p + 1) }))⟩) := by
            have hm := r.mach
            simp [exec, evals, eval, store, one, lookup, envOf, get, field, setField, loadObj, hm, machVal, set, coerce, binVal, common,
              wrapInt, wrap]
          have r1 := r.set_mach (m' := { m with p := wrap X.bits (m.p + 1) }) rfl
          have hne : eval prog X (callN prog X (c + 1)) (.bin .ne (mSel "p") (mSel "pe"))
              ⟨envOf L, h.set L.am (.obj (machVal (L.buf.val L.len) { m with p := wrap X.bits (m.p + 1) }))⟩ =
              .ok ([.bool (decide (wrap X.bits (m.p + 1) ≠ m.pe))], ⟨envOf L, h.set L.am (.obj (machVal (L.buf.val L.len) { m with p := wrap X.bits (m.p + 1) }))⟩) := by
            rw [eval_bin (op := .ne) ⟨by decide, by decide⟩ (eval_p r1 rfl) (eval_pe r1 rfl) (by rfl)]
            rw [decide_not]
            rfl
          have hg : ∀ st, exec prog X (callN prog X (c + 1)) F (.goto "_resume") st = .ok (.goto "_resume", st) := by
            intro st; simp only [exec]
          have hl : ∀ st, exec prog X (callN prog X (c + 1)) F (.label "_testEof") st = .ok (.next, st) := by
            intro st; simp only [exec]
          have hinit : execs prog X (callN prog X (c + 1)) F (.cons (.inc (mSel "p")) .nil) ⟨envOf L, h⟩ =
              .ok (.next, ⟨envOf L, h.set L.am (.obj (machVal (L.buf.val L.len) { m with p := wrap X.bits (m.p + 1) }))⟩) := by
            rw [execs_next hinc]; simp only [execs]
          split at hs
          · rename_i hcond
            simp only [pure, Except.pure, Except.ok.injEq] at hs
            subst hs
            refine ⟨hcs, _, 1, 0, by omega, ⟨sp, r1⟩, fun n => ?_⟩
            rw [decide_eq_true hcond] at hne
            have hif : exec prog X (callN prog X (c + 1)) F (.if_ (.cons (.inc (mSel "p")) .nil) (.bin .ne (mSel "p") (mSel "pe"))
                (.cons (.goto "_resume") .nil) .nil) ⟨envOf L, h⟩ =
                .ok (.goto "_resume", ⟨envOf L, h.set L.am (.obj (machVal (L.buf.val L.len) { m with p := wrap X.bits (m.p + 1) }))⟩) := by
              simp only [exec, hinit, Res.ok_bind, hne, execs_goto (hg _), jumps_noLabels (b := .cons (.goto "_resume") .nil) rfl, inScope_env]
            simp only [ctlLabel]
            rw [jump suffix_again, againStmts, execs_next hsw, execs_next (exec_ifS_false hc0), execs_goto hif]
            rfl
          · rename_i hcond
            simp only [pure, Except.pure, Except.ok.injEq] at hs
            subst hs
            refine ⟨hcs, _, 1, 1, by omega, ⟨sp, r1⟩, fun n => ?_⟩
            rw [decide_eq_false hcond] at hne
            have hif : exec prog X (callN prog X (c + 1)) F (.if_ (.cons (.inc (mSel "p")) .nil) (.bin .ne (mSel "p") (mSel "pe"))
                (.cons (.goto "_resume") .nil) .nil) ⟨envOf L, h⟩ =
                .ok (.next, ⟨envOf L, h.set L.am (.obj (machVal (L.buf.val L.len) { m with p := wrap X.bits (m.p + 1) }))⟩) := by
              rw [exec]
              simp only [hinit, Res.ok_bind, hne]
              simp only [execs, jumps_noLabels (b := .nil) rfl, inScope_env]
            simp only [ctlLabel]
            rw [jump suffix_again, againStmts, execs_next hsw, execs_next (exec_ifS_false hc0), execs_next hif, execs_next (hl _),
              jump suffix_testEof]
      · simp only [hk] at hs
        cases ha : execActBits X.bits .informalNidMatch m o with
        | error p => simp [ha, bind, Except.bind] at hs
        | ok x =>
            obtain ⟨fl, m1, o1⟩ := x
            simp only [ha, bind, Except.bind, pure, Except.pure, Except.ok.injEq] at hs
            subst hs
            obtain ⟨k1, e1, r1⟩ := act_sim (X := X) (c := c) (fuel := F) _ _ _ _ _ _ _ ⟨sp, r⟩ (fun _ => rfl) ha
            have hfl : fl = .again := by
              simp only [execActBits, execAct, Except.ok.injEq, Prod.mk.injEq] at ha
              exact ha.1.symm
            subst hfl
            refine ⟨cs_lt_of hcs (act_cs ha), k1, 1, 0, by omega, r1, fun n => ?_⟩
            simp only [ctlLabel]
            rw [jump suffix_again, againStmts, execs_goto (exec_switch hv (by rfl) (noLabels_act .informalNidMatch) e1)]
            rfl

theorem step_sim {s s' : St} (r : Rep h0 h L s.m s.o) (hcs : s.m.cs < 194) (hq : L.ro = true → stepWrites X.bits L.see.no s = false)
    (hs : stepBits X.bits s = .ok s') (hne : s.ctl ≠ .out) :
    StepSim X c F h0 L s s' h := by
  obtain ⟨ctl, m, o⟩ := s
  cases ctl with
  | resume => exact step_resume r hcs hq hs
  | again => exact step_again r hcs hs
  | testEof => exact step_testEof r hcs hq hs
  | out => exact absurd rfl hne

/-- The loop ends when the loop of the model does. -/
theorem run_sim : ∀ (n : Nat) (s : St) (h : Heap) (m' : Machine) (o' : URN), Rep h0 h L s.m s.o → s.m.cs < 194 →
    (L.ro = true → loopWrites X.bits L.see.no n s = false) → loopBits X.bits n s = .ok (m', o') → ∃ h', Rep h0 h' L m' o' ∧ ∀ k, 3 * n + 1 ≤ k →
      jumps (entry prog X (callN prog X (c + 1)) F parseBlock) k (.ok (.goto (ctlLabel s.ctl), ⟨envOf L, h⟩)) =
        .ok (.next, ⟨envOf L, h'⟩) := by
  intro n
  induction n with
  | zero =>
      rintro ⟨ctl, m, o⟩ h m' o' r hcs - hr
      cases ctl <;> simp [loopBits] at hr
      obtain ⟨rfl, rfl⟩ := hr
      refine ⟨h, r, fun k hk => ?_⟩
      obtain ⟨k, rfl⟩ : ∃ j, k = j + 1 := ⟨k - 1, by omega⟩
      simp only [ctlLabel]
      rw [jump suffix_out]
      have hb : exec prog X (callN prog X (c + 1)) F (.block .nil) ⟨envOf L, h⟩ = .ok (.next, ⟨envOf L, h⟩) := by
        simp only [exec, execs]
        rw [jumps_noLabels rfl, inScope_env _ _ rfl]
      rw [outStmts, execs_next hb]
      simp only [execs, jumps]
  | succ n ih =>
      rintro s h m' o' r hcs hq hr
      unfold loopWrites at hq
      by_cases hne : s.ctl = .out
      · obtain ⟨ctl, m, o⟩ := s
        cases hne
        have : loopBits X.bits n ⟨.out, m, o⟩ = .ok (m', o') := by
          simp [loopBits] at hr ⊢
          exact hr
        obtain ⟨h2, r2, e2⟩ := ih _ _ _ _ r hcs (fun e => by simpa [stepWrites, stepBits, pure, Except.pure] using hq e) this
        exact ⟨h2, r2, fun k hk => e2 k (by omega)⟩
      · cases hs : stepBits X.bits s with
        | error p =>
            obtain ⟨ctl, m, o⟩ := s
            cases ctl <;> simp [loopBits, hs] at hr
            exact absurd rfl hne
        | ok s' =>
            simp only [hs, Bool.or_eq_false_iff] at hq
            have hr' : loopBits X.bits n s' = .ok (m', o') := by
              obtain ⟨ctl, m, o⟩ := s
              cases ctl <;> simp [loopBits, hs] at hr <;> first | exact hr | exact absurd rfl hne
            obtain ⟨hcs', h1, k1, j1, hk1, r1, e1⟩ := step_sim (X := X) (c := c) (F := F) r hcs (fun e => (hq e).1) hs hne
            obtain ⟨h2, r2, e2⟩ := ih s' h1 m' o' r1 hcs' (fun e => (hq e).2) hr'
            refine ⟨h2, r2, fun k hk => ?_⟩
            have := e1 (k - k1)
            rw [Nat.sub_add_cancel (by omega)] at this
            rw [this]
            exact e2 _ (by omega)

end
end Urn.GoLang
