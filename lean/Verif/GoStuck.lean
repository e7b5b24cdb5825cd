import Verif.GoApi2
/-!
# If a byte of the input must not be written to, the text is stuck when the model writes to it
-/
set_option autoImplicit false
set_option linter.unusedSimpArgs false
namespace Urn.GoLang
open Tables (Act)

theorem jumps_stuck {e : String → State → Option (Res (Sig × State))} {n : Nat} : jumps e n .stuck = .stuck := by cases n <;> rfl

section
variable {X : Ext} {call : Call} {fuel c F : Nat} {h0 h : Heap} {L : Locs} {sp : Option Nat} {m : Machine} {o : URN}

theorem execs_stuck {s : Stmt} {ss : Stmts} {st : State} (hs : exec prog X call fuel s st = .stuck) :
    execs prog X call fuel (.cons s ss) st = .stuck := by
  rw [execs, hs]; rfl

/-- A pass of the loops. -/
theorem shift_stuck {op : BinOp} {delta : UInt8} {i : Int} {d' : Bytes} {ch : UInt8} (r : RepAt h0 h L sp m o) (hL : L.see.no (wrap X.bits (m.pb + i)) = true)
    (hop : op ≠ .and ∧ op ≠ .or)
    (hbin : ∀ x : UInt8, ∃ n : Int, binVal X.bits op (.int "byte" x.toNat) (.int "" 32) = some (.int "byte" n) ∧
      UInt8.ofNat n.toNat = x + delta)
    (hi : index m.data (wrap X.bits (m.pb + i)) = .ok ch) (hs : Urn.store m.data (wrap X.bits (m.pb + i)) (ch + delta) = .ok d') :
    execs prog X call fuel (.cons (asg dataI (.bin op dataI (.num 32))) .nil) ⟨("i", .int "int" i) :: envOf L, h⟩ = .stuck := by
  have henv : get "m" (("i", .int "int" i) :: envOf L) = some (.ptr "machine" (some L.am)) := rfl
  have hidx : eval prog X call (.bin .add (mSel "pb") (.id "i")) ⟨("i", .int "int" i) :: envOf L, h⟩ =
      .ok ([.int "int" (wrap X.bits (m.pb + i))], ⟨("i", .int "int" i) :: envOf L, h⟩) :=
    eval_bin (op := .add) ⟨by decide, by decide⟩ (eval_pb r henv) (eval_var (v := .int "int" i) (by simp [lookup, get])) (by rfl)
  have hdata := eval_data (X := X) (call := call) r henv
  have hiv := Buf.index_val r.buf hi
  rw [r.len] at hiv
  have hix : eval prog X call dataI ⟨("i", .int "int" i) :: envOf L, h⟩ =
      .ok ([.int "byte" ch.toNat], ⟨("i", .int "int" i) :: envOf L, h⟩) := by
    unfold dataI
    rw [eval]
    simp only [hdata, hidx, Res.ok_bind, one, hiv, Res.pure_eq]
  obtain ⟨n, hn, hx⟩ := hbin ch
  have hval := eval_bin (op := op) hop hix (b := .num 32) (y := .int "" 32) (by simp only [eval]; rfl) hn
  have hset := Buf.setIndex_stuck (t := "byte") (n := n) r.buf hL hs
  rw [r.len] at hset
  apply execs_stuck
  simp only [exec, evals, hval, Res.ok_bind, Res.pure_eq, List.append_nil, one]
  simp only [store, hdata, hidx, Res.ok_bind, one, hset, Res.pure_eq]
  rfl

theorem loop_stuck {op : BinOp} {delta : UInt8} (hop : op ≠ .and ∧ op ≠ .or)
    (hbin : ∀ x : UInt8, ∃ n : Int, binVal X.bits op (.int "byte" x.toNat) (.int "" 32) = some (.int "byte" n) ∧
      UInt8.ofNat n.toNat = x + delta) : ∀ (is : List Int) {h : Heap} {m : Machine} {d' : Bytes},
    is.any (fun i => L.see.no (wrap X.bits (m.pb + i))) = true → RepAt h0 h L sp m o →
    shiftAllBits X.bits m.pb delta is m.data = .ok d' →
    rangeLoop (fun v st => inScope st.env.length (jumps (entry prog X call fuel (.cons (asg dataI (.bin op dataI (.num 32))) .nil))
        fuel (execs prog X call fuel (.cons (asg dataI (.bin op dataI (.num 32))) .nil) { st with env := ("i", v) :: st.env })))
        (is.map (.int "int")) ⟨envOf L, h⟩ = .stuck
  | [], h, m, d', hL, r, hs => by cases hL
  | i :: is, h, m, d', hL, r, hs => by
      simp only [List.any_cons, Bool.or_eq_true] at hL
      unfold shiftAllBits at hs
      cases hi : index m.data (wrap X.bits (m.pb + i)) with
      | error p => simp [hi, bind, Except.bind] at hs
      | ok ch =>
          cases hst : Urn.store m.data (wrap X.bits (m.pb + i)) (ch + delta) with
          | error p => simp [hi, hst, bind, Except.bind] at hs
          | ok d1 =>
              simp only [hi, hst, bind, Except.bind] at hs
              simp only [List.map_cons, rangeLoop]
              rw [jumps_noLabels rfl]
              cases hq : L.see.no (wrap X.bits (m.pb + i)) with
              | true =>
                  rw [shift_stuck (X := X) (call := call) (fuel := fuel) r hq hop hbin hi hst]
                  rfl
              | false =>
                  obtain ⟨h1, e1, r1⟩ := exec_shift (X := X) (call := call) (fuel := fuel) r hq hop hbin hi hst
                  have := loop_stuck (m := { m with data := d1 }) hop hbin is (by rw [hq] at hL; simpa using hL) r1 hs
                  rw [e1]
                  have e2 : inScope (envOf L).length (.ok (.next, ⟨("i", .int "int" i) :: envOf L, h1⟩)) =
                      .ok (.next, ⟨envOf L, h1⟩) := by simp [inScope]
                  rw [e2]
                  exact this

/-- One of the two loops. -/
theorem range_stuck {op : BinOp} {delta : UInt8} {d' : Bytes} (hop : op ≠ .and ∧ op ≠ .or)
    (hbin : ∀ x : UInt8, ∃ n : Int, binVal X.bits op (.int "byte" x.toNat) (.int "" 32) = some (.int "byte" n) ∧
      UInt8.ofNat n.toNat = x + delta) (r : RepAt h0 h L sp m o) (hL : o.tolower.any (fun i => L.see.no (wrap X.bits (m.pb + i))) = true)
    (hs : shiftAllBits X.bits m.pb delta o.tolower m.data = .ok d') :
    exec prog X call fuel (shiftS op) ⟨envOf L, h⟩ = .stuck := by
  have ht : eval prog X call (oSel "tolower") ⟨envOf L, h⟩ = .ok ([.list (o.tolower.map (.int "int"))], ⟨envOf L, h⟩) := by
    simp [eval, lookup, envOf, get, one, field, loadObj, r.out, urnVal]
  unfold shiftS
  rw [exec]
  simp only [ht, Res.ok_bind]
  exact loop_stuck hop hbin o.tolower hL r hs

theorem act_stuck {a : Act} {fl : Flow} {m' : Machine} {o' : URN} (r : Rep h0 h L m o) (hw : actWrites X.bits L.see.no a m o = true)
    (he : execActBits X.bits a m o = .ok (fl, m', o')) :
    execs prog X (callN prog X (c + 1)) fuel (actStmts a) ⟨envOf L, h⟩ = .stuck := by
  cases a
  case setNss =>
    obtain ⟨sp, r⟩ := r
    cases ht : m.text with
    | error p => simp [execActBits, execAct, ht, bind, Except.bind] at he
    | ok ss =>
        cases h1 : shiftAllBits X.bits m.pb 32 o.tolower m.data with
        | error p => simp [execActBits, execAct, ht, h1, bind, Except.bind] at he
        | ok d1 =>
            obtain ⟨k1, e1, r1⟩ := exec_SS (X := X) (c := c) (fuel := fuel) r ht
            rw [actStmts, execs_next e1]
            exact execs_stuck (range_stuck ⟨by decide, by decide⟩ bin_add r1 hw h1)
  all_goals cases hw

theorem acts_stuck : ∀ (as : List Act) (h : Heap) (m : Machine) (o : URN) (fl : Flow) (m' : Machine) (o' : URN),
    Rep h0 h L m o → actsWrite X.bits L.see.no as m o = true → execActsBits X.bits as m o = .ok (fl, m', o') →
    execs prog X (callN prog X (c + 1)) fuel (actsStmts as) ⟨envOf L, h⟩ = .stuck
  | [], h, m, o, fl, m', o', r, hw, he => by cases hw
  | a :: as, h, m, o, fl, m', o', r, hw, he => by
      unfold execActsBits at he
      cases h1 : execActBits X.bits a m o with
      | error p => simp [h1, bind, Except.bind] at he
      | ok x =>
          obtain ⟨fl1, m1, o1⟩ := x
          simp only [h1, bind, Except.bind] at he
          simp only [actsWrite, h1, Bool.or_eq_true] at hw
          rw [actsStmts, execs_append]
          cases hq : actWrites X.bits L.see.no a m o with
          | true => rw [act_stuck r hq h1]; rfl
          | false =>
              obtain ⟨k1, e1, r1⟩ := act_sim (X := X) (c := c) (fuel := fuel) a h m o fl1 m1 o1 r (fun _ => hq) h1
              rw [hq] at hw
              cases fl1 with
              | again => simp at hw
              | next =>
                  have := acts_stuck as k1 m1 o1 fl m' o' r1 (by simpa using hw) he
                  rw [e1]
                  simp only [Res.ok_bind, sigOf]
                  exact this

theorem switch_stuck {call : Call} {e : Expr} {cs : Cases} {k : Nat} {t : String} {body : Stmts} {env : Env}
    (he : eval prog X call e ⟨env, h⟩ = .ok ([.int t k], ⟨env, h⟩)) (hf : findCase cs k = some body) (hn : noLabels body = true)
    (hb : execs prog X call F body ⟨env, h⟩ = .stuck) :
    exec prog X call F (.switch e cs) ⟨env, h⟩ = .stuck := by
  rw [exec]
  simp only [he, Res.ok_bind, one, execCases_find hf, jumps_noLabels hn, hb]
  rfl

theorem if_stuck {e : Expr} {a b : Stmts} {env : Env} (ha : noLabels a = true)
    (he : eval prog X call e ⟨env, h⟩ = .ok ([.bool true], ⟨env, h⟩)) (hb : execs prog X call fuel a ⟨env, h⟩ = .stuck) :
    exec prog X call fuel (.if_ .nil e a b) ⟨env, h⟩ = .stuck := by
  simp only [exec, execs, Res.ok_bind, he, jumps_noLabels ha, hb]
  rfl

theorem step_stuck {s s' : St} (r : Rep h0 h L s.m s.o) (hcs : s.m.cs < 194) (hw : stepWrites X.bits L.see.no s = true)
    (hs : stepBits X.bits s = .ok s') : ∃ k, k ≤ 3 ∧ ∀ n,
      jumps (entry prog X (callN prog X (c + 1)) F parseBlock) (n + k) (.ok (.goto (ctlLabel s.ctl), ⟨envOf L, h⟩)) = .stuck := by
  obtain ⟨ctl, m, o⟩ := s
  obtain ⟨sp, r⟩ := r
  dsimp only at r hcs ⊢
  cases ctl with
  | again => cases hw
  | out => cases hw
  | resume =>
      unfold stepBits at hs
      unfold stepWrites at hw
      cases hi : index m.data m.p with
      | error p => simp [hi, bind, Except.bind] at hs
      | ok ch =>
          simp only [hi, bind, Except.bind, Tables.dispatch] at hs
          simp only [hi, Tables.dispatch] at hw
          by_cases h0' : m.cs = 0
          · simp [h0'] at hw
          · simp only [h0', if_false] at hs hw
            obtain ⟨body, t, h1, h2, h3⟩ := state_case h0' hcs
            obtain ⟨h3, h4⟩ := h3 ch
            have e := toTree_execs (P := prog) (X := X) (call := callN prog X (c + 1)) (fuel := F) (eval_cur r hi) h2
            rw [h3] at e
            have hc := eval_cs (X := X) (call := callN prog X (c + 1)) r
            obtain ⟨k1, e1, r1⟩ := exec_cs (X := X) (F := F) (call := callN prog X (c + 1)) r (Tables.trRow (Tables.trOf m.cs ch)).1
            obtain ⟨rest, hrest⟩ := tr_label h4
            cases hf : (Tables.trRow (Tables.trOf m.cs ch)).2 with
            | none => simp [hf] at hw
            | some f =>
                simp only [hf] at hs hw
                cases ha : execActsBits X.bits (Tables.fActs f) { m with cs := (Tables.trRow (Tables.trOf m.cs ch)).1 } o with
                | error p => simp [ha] at hs
                | ok x =>
                    obtain ⟨fl, m1, o1⟩ := x
                    have e2 := acts_stuck (X := X) (c := c) (fuel := F) _ _ _ _ _ _ _ ⟨sp, r1⟩ hw ha
                    obtain ⟨rest2, hrest2⟩ := f_label h4 hf
                    refine ⟨3, by omega, fun n => ?_⟩
                    simp only [ctlLabel]
                    rw [jump suffix_resume, execs_goto (exec_switch hc h1 (noLabels_tree h2) e), jump hrest, execs_next e1,
                      execs_goto (l := fLabel (Tables.trRow (Tables.trOf m.cs ch)).2) (st' := ⟨envOf L, k1⟩) (by simp only [exec]), hf]
                    simp only [fLabel]
                    rw [jump hrest2, execs_append, e2]
                    exact jumps_stuck
  | testEof =>
      unfold stepBits at hs
      unfold stepWrites at hw
      have hc : eval prog X (callN prog X (c + 1)) (.bin .eq (mSel "p") (mSel "eof")) ⟨envOf L, h⟩ =
          .ok ([.bool (decide (m.p = m.eof))], ⟨envOf L, h⟩) :=
        eval_bin (op := .eq) ⟨by decide, by decide⟩ (eval_p r rfl) (eval_eof r) (by rfl)
      have hb : exec prog X (callN prog X (c + 1)) F (.block .nil) ⟨envOf L, h⟩ = .ok (.next, ⟨envOf L, h⟩) := by
        simp only [exec, execs]
        rw [jumps_noLabels rfl, inScope_env _ _ rfl]
      simp only at hs hw
      split at hs
      · rename_i hcond
        rw [decide_eq_true hcond] at hc
        rw [if_pos hcond] at hw
        cases hk : Tables.eofActions[m.cs]? with
        | none => simp [hk] at hs
        | some k =>
            simp only [hk, bind, Except.bind] at hs
            simp only [hk] at hw
            have hv : eval prog X (callN prog X (c + 1)) (.index (.id "_eofActions") (mSel "cs")) ⟨envOf L, h⟩ =
                .ok ([.int "byte" k], ⟨envOf L, h⟩) :=
              eval_list r (by have : get "_eofActions" (envOf L) = none := rfl
                              simp only [lookup, this, c_eof]) hk
            cases ha : execActsBits X.bits (Tables.eofActs k) m o with
            | error p => simp [ha] at hs
            | ok x =>
                obtain ⟨fl, m1, o1⟩ := x
                have e1 := acts_stuck (X := X) (c := c) (fuel := F) _ _ _ _ _ _ _ ⟨sp, r⟩ hw ha
                have hsw : exec prog X (callN prog X (c + 1)) F (.switch (.index (.id "_eofActions") (mSel "cs")) eofCases) ⟨envOf L, h⟩ = .stuck := by
                  rcases eof_case (List.mem_of_getElem? hk) with ⟨hk0, hno⟩ | hfind
                  · subst hk0
                    have he0 : Tables.eofActs 0 = [] := by rfl
                    rw [he0] at hw
                    cases hw
                  · exact switch_stuck hv hfind (noLabels_acts _) e1
                refine ⟨1, by omega, fun n => ?_⟩
                simp only [ctlLabel]
                rw [jump suffix_testEof, eofStmts, execs_next hb, execs_stuck (if_stuck rfl hc (execs_stuck hsw))]
                exact jumps_stuck
      · rename_i hcond
        rw [if_neg hcond] at hw
        cases hw

theorem run_stuck : ∀ (n : Nat) (s : St) (h : Heap) (m' : Machine) (o' : URN), Rep h0 h L s.m s.o → s.m.cs < 194 →
    loopWrites X.bits L.see.no n s = true → loopBits X.bits n s = .ok (m', o') → ∀ k, 3 * n + 1 ≤ k →
      jumps (entry prog X (callN prog X (c + 1)) F parseBlock) k (.ok (.goto (ctlLabel s.ctl), ⟨envOf L, h⟩)) = .stuck := by
  intro n
  induction n with
  | zero => intro s h m' o' r hcs hw; cases hw
  | succ n ih =>
      rintro s h m' o' r hcs hw hr k hk
      unfold loopWrites at hw
      by_cases hne : s.ctl = .out
      · obtain ⟨ctl, m, o⟩ := s
        cases hne
        have : loopBits X.bits n ⟨.out, m, o⟩ = .ok (m', o') := by
          simp [loopBits] at hr ⊢
          exact hr
        exact ih _ _ _ _ r hcs (by simpa [stepWrites, stepBits, pure, Except.pure] using hw) this k (by omega)
      · cases hs : stepBits X.bits s with
        | error p =>
            obtain ⟨ctl, m, o⟩ := s
            cases ctl <;> simp [loopBits, hs] at hr
            exact absurd rfl hne
        | ok s' =>
            have hr' : loopBits X.bits n s' = .ok (m', o') := by
              obtain ⟨ctl, m, o⟩ := s
              cases ctl <;> simp [loopBits, hs] at hr <;> first | exact hr | exact absurd rfl hne
            cases hq : stepWrites X.bits L.see.no s with
            | true =>
                obtain ⟨k1, hk1, e⟩ := step_stuck (X := X) (c := c) (F := F) r hcs hq hs
                have := e (k - k1)
                rwa [Nat.sub_add_cancel (by omega)] at this
            | false =>
                obtain ⟨hcs', h1, k1, j1, hk1, r1, e1⟩ := step_sim (X := X) (c := c) (F := F) r hcs (fun _ => hq) hs hne
                simp only [hq, hs, Bool.false_or] at hw
                have := e1 (k - k1)
                rw [Nat.sub_add_cancel (by omega)] at this
                rw [this]
                exact ih s' h1 m' o' r1 hcs' hw hr' _ (by omega)

end

section
variable {X : Ext} {n am : Nat} {h : Heap} {b : Buf} {m : Machine} {input : Bytes} {b0 : Buf} {n0 : Nat}

theorem parse_stuck {r : Parsed} (hm : h[am]? = some (.obj (machVal (b0.val n0) m))) {w : Seen} (hb : b.seen w h input)
    (hw : parseWrites X.bits w.no m input = true) (hs : m.startParsingAt < 194) (hr : m.parseBits X.bits input = .ok r) (n : Nat) (hn : 9 * input.length + 70 ≤ n) :
    runMethod prog X n (.ptr "machine" (some am)) "Parse" [b.val input.length] h = .stuck := by
  obtain ⟨c, rfl⟩ : ∃ c, n = c + 2 := ⟨n - 2, by omega⟩
  unfold Machine.parseBits at hr
  cases hrun : loopBits X.bits (fuelFor input.length) (Urn.entry (m.init input)) with
  | panic p => simp [hrun, bind, Run.bind] at hr
  | diverge => simp [hrun, bind, Run.bind] at hr
  | ok mo =>
  obtain ⟨m', o'⟩ := mo
  have r0 := start_rep hm hb
  have hm0 : (Urn.entry (m.init input)).m = m.init input ∧ (Urn.entry (m.init input)).o = { tolower := [] } := by
    unfold Urn.entry
    split
    · exact ⟨rfl, rfl⟩
    · split <;> exact ⟨rfl, rfl⟩
  have e' := run_stuck (X := X) (c := c) (F := c + 1) (L := locs w am h b input) (fuelFor input.length) (Urn.entry (m.init input)) (startHeap am h b m input) m' o'
    (by rw [hm0.1, hm0.2]; exact ⟨none, r0⟩) (by rw [hm0.1]; exact hs) hw hrun
  have hblk : exec prog X (callN prog X (c + 1)) (c + 1) (.block parseBlock)
      ⟨envOf (locs w am h b input), startHeap am h b m input⟩ = .stuck := by
    rw [exec, block_entry r0, e']
    · rfl
    · simp only [fuelFor]
      split <;> omega
  have hx := exec_start (X := X) (F := c + 1) (call := callN prog X (c + 1)) hm hb
  rw [execs_stuck hblk] at hx
  have hrun' : runMethod prog X (c + 2) (.ptr "machine" (some am)) "Parse" [b.val input.length] h =
      callN prog X (c + 2) [.ptr (.name "URN"), .name "error"]
        [("m", .ptr "machine" (some am)), ("input", b.val input.length)] parseBody h := by
    have hc : coerce .nil (b.val input.length) = b.val input.length := by simp [coerce]
    simp only [runMethod, method, find_parse, callFn, parseFn_eq, bindParams, Res.some!, bind, Res.bind, pure, zero_bytes, hc]
    rfl
  rw [hrun', callN, hx, jumps_stuck]

theorem parse_call_stuck {r : Parsed} (hm : h[am]? = some (.obj (machVal (b0.val n0) m))) {w : Seen} (hb : b.seen w h input)
    (hw : parseWrites X.bits w.no m input = true) (hs : m.startParsingAt < 194) (hr : m.parseBits X.bits input = .ok r) (hn : 9 * input.length + 70 ≤ n) :
    callFn prog (callN prog X n) parseFn (some (.ptr "machine" (some am))) [b.val input.length] false h = .stuck := by
  have := parse_stuck (X := X) hm hb hw hs hr n hn
  simp only [runMethod, method, find_parse, Res.ok_bind] at this
  exact this

theorem pkgParse_stuck {r : ParseResult} (xs : List Int) {w : Seen} (hb : b.seen w h input)
    (hw : ∀ m, newMachine (xs.map withParsingMode) = .ok m → parseWrites X.bits w.no m input = true) (hf : X.Fits input)
    (hr : parse input (xs.map withParsingMode) = .ok r) (hn : 9 * input.length + 75 ≤ n) :
    callFn prog (callN prog X n) pkgParseFn none (b.val input.length :: xs.map optVal) false h = .stuck := by
  obtain ⟨k, rfl⟩ : ∃ k, n = k + 4 := ⟨n - 4, by omega⟩
  obtain ⟨m, hnew, hstart, hcall⟩ := newMachine_call (X := X) (n := k) (h := h) xs
  unfold parse at hr
  rw [hnew] at hr
  simp only [Run.ok_bind] at hr
  cases hp : m.parse input with
  | panic p => simp [hp] at hr
  | diverge => simp [hp] at hr
  | ok q =>
  replace hp := (parseBits_new hf hnew).trans hp
  have hb1 : b.seen w (h ++ [.obj (machVal (Buf.nil.val 0) m)]) input := Buf.seen_append hb
  have e := parse_call_stuck (X := X) (n := k + 3) (am := h.length) (b0 := .nil) (n0 := 0) (by simp) hb1 (hw m hnew) hstart hp (by omega)
  have hf : callFn prog (callN prog X (k + 4)) pkgParseFn none (b.val input.length :: xs.map optVal) false h =
      callN prog X (k + 4) [.ptr (.name "URN"), .name "bool"] [("u", b.val input.length), ("options", .list (xs.map optVal))] pkgParseFn.body h := by
    simp [pkgParseFn, callFn, bindParams, zero_bytes, coerce]
  have s1 : exec prog X (callN prog X (k + 3)) (k + 3) (.define ["urn", "err"]
      (.cons (.call (.sel (.call (.id "NewMachine") (.cons (.id "options") .nil) true) "Parse") (.cons (.id "u") .nil) false) .nil))
      ⟨[("u", b.val input.length), ("options", .list (xs.map optVal))], h⟩ = .stuck := by
    simp [exec, evals, eval_call_method, eval, lookup, get, callName, find_newMachine, hcall, one, method, find_parse, e]
  rw [hf, callN]
  have : execs prog X (callN prog X (k + 3)) (k + 3) pkgParseFn.body ⟨[("u", b.val input.length), ("options", .list (xs.map optVal))], h⟩ = .stuck :=
    execs_stuck s1
  rw [this, jumps_stuck]
end

end Urn.GoLang
