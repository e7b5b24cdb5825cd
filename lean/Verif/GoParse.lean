import Verif.GoLoop
/-!
# `Parse` in the text of machine.go and `Machine.parse`
-/
set_option autoImplicit false
set_option linter.unusedSimpArgs false
namespace Urn.GoLang

/-- machine.go:138-5034 -/
def parseBody : Stmts :=
  .cons (asg (mSel "data") (.id "input"))
  (.cons (asg (mSel "p") (.num 0))
  (.cons (asg (mSel "pb") (.num 0))
  (.cons (asg (mSel "pe") (.call (.id "len") (.cons (.id "input") .nil) false))
  (.cons (asg (mSel "eof") (.call (.id "len") (.cons (.id "input") .nil) false))
  (.cons (asg (mSel "err") (.id "nil"))
  (.cons (asg (mSel "cs") (mSel "startParsingAt"))
  (.cons (.define ["output"] (.cons (.un .addr (.lit (.name "URN") (.cons "tolower" (.lit (.slice (.name "int")) .nil) .nil))) .nil))
  (.cons (.block parseBlock)
  (.cons (ifS (.bin .or (.bin .lt (mSel "cs") (.id "firstFinal")) (.bin .eq (mSel "cs") (.id "enFail")))
    (.cons (.ret (.cons (.id "nil") (.cons (mSel "err") .nil))) .nil))
  (.cons (.ret (.cons (.id "output") (.cons (.id "nil") .nil))) .nil))))))))))

theorem parseFn_eq : parseFn =
    { recv := some { name := "m", ty := .ptr (.name "machine"), variadic := false }
      name := "Parse"
      params := [{ name := "input", ty := .slice (.name "byte"), variadic := false }]
      results := [.ptr (.name "URN"), .name "error"]
      body := parseBody } := by kernel_rfl

theorem c_firstFinal : get "firstFinal" prog.consts = some (.int "int" 172) := by kernel_rfl
theorem c_enFail : get "enFail" prog.consts = some (.int "int" 193) := by kernel_rfl

theorem fill_urn : fill prog "URN" [("tolower", .list [])] = .ok (urnVal none { tolower := [] }) := by kernel_rfl

section
variable {X : Ext} {c F am : Nat} {h : Heap} {b : Buf} {m : Machine} {input : Bytes} {b0 : Buf} {n0 : Nat} {w : Seen}

/-- Where things are in `Parse`. -/
def locs (w : Seen) (am : Nat) (h : Heap) (b : Buf) (input : Bytes) : Locs := ⟨am, h.length, b, input.length, w⟩

/-- The memory when the loop begins. -/
def startHeap (am : Nat) (h : Heap) (b : Buf) (m : Machine) (input : Bytes) : Heap :=
  h.set am (.obj (machVal (b.val input.length) (m.init input))) ++ [.obj (urnVal none { tolower := [] })]

theorem start_rep (hm : h[am]? = some (.obj (machVal (b0.val n0) m))) (hb : b.seen w h input) :
    RepAt h (startHeap am h b m input) (locs w am h b input) none (m.init input) { tolower := [] } := by
  have hl := (List.getElem?_eq_some_iff.1 hm).1
  have haw : b.away am := by
    cases b with
    | nil => trivial
    | part a pre post cap =>
        intro he
        rw [he, hb.1] at hm
        exact cellOf_obj (Option.some.inj hm)
  refine ⟨?_, ?_, rfl, ?_, rfl, Nat.le_refl _, ?_⟩
  · simp only [startHeap, locs]
    rw [List.getElem?_append_left (by simpa using hl), List.getElem?_set_self hl]
  · simp only [startHeap, locs]
    rw [List.getElem?_append_right (by simp)]
    simp
  · exact Buf.seen_append (Buf.seen_set hb haw)
  · intro a h1 h2 _
    have h2 : a ≠ am := h2
    simp only [startHeap]
    rw [List.getElem?_append_left (by simpa using h1), List.getElem?_set_ne (Ne.symm h2)]

theorem len_val {call : Call} {st : State} {s : Bool} (hb : b.seen w h input) (hs : get "len" st.env = none) :
    callName prog call "len" [b.val input.length] s st = .ok ([.int "int" input.length], st) := by
  cases b with
  | nil => cases hb; simp [callName, hs, Buf.val]
  | part a pre post cap => simp [callName, hs, Buf.val]

theorem errVal_coerce (e : Option Err) (v : Val) : coerce (errVal e) v = v := by
  cases e <;> simp [errVal, coerce]

theorem val_coerce (n : Nat) (v : Val) : coerce (b0.val n) v = v := by
  cases b0 <;> cases v <;> simp [Buf.val, coerce]

theorem look_nil {env : Env} (he : get "nil" env = none) : lookup prog env "nil" = some .nil := by
  simp [lookup, he, c_nil]

/-- The statements before the block. -/
theorem exec_start {call : Call} (hm : h[am]? = some (.obj (machVal (b0.val n0) m))) (hb : b.seen w h input) :
    execs prog X call F parseBody ⟨[("m", .ptr "machine" (some am)), ("input", b.val input.length)], h⟩ =
      execs prog X call F (.cons (.block parseBlock)
        (.cons (ifS (.bin .or (.bin .lt (mSel "cs") (.id "firstFinal")) (.bin .eq (mSel "cs") (.id "enFail")))
        (.cons (.ret (.cons (.id "nil") (.cons (mSel "err") .nil))) .nil))
        (.cons (.ret (.cons (.id "output") (.cons (.id "nil") .nil))) .nil)))
        ⟨envOf (locs w am h b input), startHeap am h b m input⟩ := by
  have hl := (List.getElem?_eq_some_iff.1 hm).1
  have hset : ∀ x, (h.set am x)[am]? = some x := fun x => List.getElem?_set_self hl
  have hlen : ∀ (st : State) (s : Bool), get "len" st.env = none →
    callName prog call "len" [b.val input.length] s st = .ok ([.int "int" input.length], st) := fun st s hs => len_val hb hs
  have s1 : exec prog X call F (asg (mSel "data") (.id "input")) ⟨[("m", .ptr "machine" (some am)), ("input", b.val input.length)], h⟩ =
    .ok (.next, ⟨[("m", .ptr "machine" (some am)), ("input", b.val input.length)], h.set am (.obj (machVal (b.val input.length) m))⟩) := by
    simp [exec, evals, eval, store, one, lookup, get, field, setField, loadObj, hm, machVal, set, val_coerce]
  have s2 : exec prog X call F (asg (mSel "p") (.num 0))
      ⟨[("m", .ptr "machine" (some am)), ("input", b.val input.length)], h.set am (.obj (machVal (b.val input.length) m))⟩ =
    .ok (.next, ⟨[("m", .ptr "machine" (some am)), ("input", b.val input.length)],
      h.set am (.obj (machVal (b.val input.length) { m with p := 0 }))⟩) := by
    simp [exec, evals, eval, store, one, lookup, get, field, setField, loadObj, hset, machVal, set, coerce, hlen, errVal_coerce, errVal, c_nil]
  have s3 : exec prog X call F (asg (mSel "pb") (.num 0))
      ⟨[("m", .ptr "machine" (some am)), ("input", b.val input.length)], h.set am (.obj (machVal (b.val input.length) { m with p := 0 }))⟩ =
    .ok (.next, ⟨[("m", .ptr "machine" (some am)), ("input", b.val input.length)],
      h.set am (.obj (machVal (b.val input.length) { m with p := 0, pb := 0 }))⟩) := by
    simp [exec, evals, eval, store, one, lookup, get, field, setField, loadObj, hset, machVal, set, coerce, hlen, errVal_coerce, errVal, c_nil]
  have s4 : exec prog X call F (asg (mSel "pe") (.call (.id "len") (.cons (.id "input") .nil) false))
      ⟨[("m", .ptr "machine" (some am)), ("input", b.val input.length)], h.set am (.obj (machVal (b.val input.length) { m with p := 0, pb := 0 }))⟩ =
    .ok (.next, ⟨[("m", .ptr "machine" (some am)), ("input", b.val input.length)],
      h.set am (.obj (machVal (b.val input.length) { m with p := 0, pb := 0, pe := input.length }))⟩) := by
    simp [exec, evals, eval, store, one, lookup, get, field, setField, loadObj, hset, machVal, set, coerce, hlen, errVal_coerce, errVal, c_nil]
  have s5 : exec prog X call F (asg (mSel "eof") (.call (.id "len") (.cons (.id "input") .nil) false))
      ⟨[("m", .ptr "machine" (some am)), ("input", b.val input.length)], h.set am (.obj (machVal (b.val input.length) { m with p := 0, pb := 0, pe := input.length }))⟩ =
    .ok (.next, ⟨[("m", .ptr "machine" (some am)), ("input", b.val input.length)],
      h.set am (.obj (machVal (b.val input.length) { m with p := 0, pb := 0, pe := input.length, eof := input.length }))⟩) := by
    simp [exec, evals, eval, store, one, lookup, get, field, setField, loadObj, hset, machVal, set, coerce, hlen, errVal_coerce, errVal, c_nil]
  have s6 : exec prog X call F (asg (mSel "err") (.id "nil"))
      ⟨[("m", .ptr "machine" (some am)), ("input", b.val input.length)], h.set am (.obj (machVal (b.val input.length) { m with p := 0, pb := 0, pe := input.length, eof := input.length }))⟩ =
    .ok (.next, ⟨[("m", .ptr "machine" (some am)), ("input", b.val input.length)],
      h.set am (.obj (machVal (b.val input.length) { m with p := 0, pb := 0, pe := input.length, eof := input.length, err := none }))⟩) := by
    simp [exec, evals, eval, store, one, lookup, get, field, setField, loadObj, hset, machVal, set, errVal_coerce, c_nil]
    simp [errVal]
  have s7 : exec prog X call F (asg (mSel "cs") (mSel "startParsingAt"))
      ⟨[("m", .ptr "machine" (some am)), ("input", b.val input.length)], h.set am (.obj (machVal (b.val input.length) { m with p := 0, pb := 0, pe := input.length, eof := input.length, err := none }))⟩ =
    .ok (.next, ⟨[("m", .ptr "machine" (some am)), ("input", b.val input.length)],
      h.set am (.obj (machVal (b.val input.length) { m with p := 0, pb := 0, pe := input.length, eof := input.length, err := none, cs := m.startParsingAt }))⟩) := by
    simp [exec, evals, eval, store, one, lookup, get, field, setField, loadObj, hset, machVal, set, coerce, hlen, errVal_coerce, errVal, c_nil]
  have s8 : exec prog X call F
      (.define ["output"] (.cons (.un .addr (.lit (.name "URN") (.cons "tolower" (.lit (.slice (.name "int")) .nil) .nil))) .nil))
      ⟨[("m", .ptr "machine" (some am)), ("input", b.val input.length)], h.set am (.obj (machVal (b.val input.length)
        { m with p := 0, pb := 0, pe := input.length, eof := input.length, err := none, cs := m.startParsingAt }))⟩ =
    .ok (.next, ⟨envOf (locs w am h b input), startHeap am h b m input⟩) := by
    simp [exec, evals, eval, evalElems, one, fill_urn, coerceDefault, coerce, envOf, locs, startHeap, Machine.init, machVal]
  rw [parseBody, execs_next s1, execs_next s2, execs_next s3, execs_next s4, execs_next s5, execs_next s6, execs_next s7,
    execs_next s8]

/-- The block. -/
theorem exec_block {call : Call} {st st' : State} (he : st'.env = st.env)
    (hj : jumps (entry prog X call F parseBlock) F (execs prog X call F parseBlock st) = .ok (.next, st')) :
    exec prog X call F (.block parseBlock) st = .ok (.next, st') := by
  rw [exec, hj, ← he]
  simp [inScope]

/-- Into the loop. -/
theorem block_entry {h0 : Heap} {L : Locs} {m : Machine} {sp : Option Nat} (r : RepAt h0 h L sp m { tolower := [] }) (n : Nat) :
    jumps (entry prog X (callN prog X (c + 1)) F parseBlock) n (execs prog X (callN prog X (c + 1)) F parseBlock ⟨envOf L, h⟩) =
    jumps (entry prog X (callN prog X (c + 1)) F parseBlock) (if (Urn.entry m).ctl = .resume then n + 1 else n)
      (.ok (.goto (ctlLabel (Urn.entry m).ctl), ⟨envOf L, h⟩)) := by
  have hc : eval prog X (callN prog X (c + 1)) (.bin .eq (mSel "p") (mSel "pe")) ⟨envOf L, h⟩ =
      .ok ([.bool (decide (m.p = m.pe))], ⟨envOf L, h⟩) :=
    eval_bin (op := .eq) ⟨by decide, by decide⟩ (eval_p r rfl) (eval_pe r rfl) (by rfl)
  have hc0 : eval prog X (callN prog X (c + 1)) (.bin .eq (mSel "cs") (.num 0)) ⟨envOf L, h⟩ =
      .ok ([.bool (decide ((m.cs : Int) = 0))], ⟨envOf L, h⟩) :=
    eval_bin (op := .eq) ⟨by decide, by decide⟩ (eval_cs r) (y := .int "" 0) (by simp only [eval]; rfl) (by rfl)
  have hg : ∀ l st, exec prog X (callN prog X (c + 1)) F (.goto l) st = .ok (.goto l, st) := by
    intro l st; simp only [exec]
  have hl : ∀ l st, exec prog X (callN prog X (c + 1)) F (.label l) st = .ok (.next, st) := by
    intro l st; simp only [exec]
  have hx : execs prog X (callN prog X (c + 1)) F parseBlock ⟨envOf L, h⟩ =
      execs prog X (callN prog X (c + 1)) F (.cons (ifS (.bin .eq (mSel "p") (mSel "pe")) (.cons (.goto "_testEof") .nil))
      (.cons (ifS (.bin .eq (mSel "cs") (.num 0)) (.cons (.goto "_out") .nil))
        (.cons (.label "_resume") (.cons (.switch (mSel "cs") resumeCases) afterSwitch)))) ⟨envOf L, h⟩ :=
    congrArg (fun b => execs prog X (callN prog X (c + 1)) F b ⟨envOf L, h⟩) parseBlock_eq
  rw [hx]
  unfold Urn.entry
  by_cases h1 : m.p = m.pe
  · rw [decide_eq_true h1] at hc
    simp only [h1, if_true]
    rw [execs_goto (exec_if_true rfl hc (execs_goto (hg _ _)))]
    rfl
  · rw [decide_eq_false h1] at hc
    simp only [h1, if_false]
    by_cases h2 : m.cs = 0
    · have h2' : (m.cs : Int) = 0 := by omega
      rw [decide_eq_true h2'] at hc0
      simp only [h2, if_true]
      rw [execs_next (exec_ifS_false hc), execs_goto (exec_if_true rfl hc0 (execs_goto (hg _ _)))]
      rfl
    · have h2' : ¬ (m.cs : Int) = 0 := by omega
      rw [decide_eq_false h2'] at hc0
      simp only [h2, if_false, if_true]
      rw [execs_next (exec_ifS_false hc), execs_next (exec_ifS_false hc0), execs_next (hl _ _)]
      simp only [ctlLabel]
      rw [jump suffix_resume]

theorem jumps_ret {e : String → State → Option (Res (Sig × State))} {n : Nat} {vs : List Val} {st : State} :
    jumps e n (.ok (.ret vs, st)) = .ok (.ret vs, st) := by
  cases n <;> rfl

theorem callN_ret {P : Prog} {n : Nat} {rs : List Ty} {env : Env} {body : Stmts} {vs : List Val} {st : State}
    (he : execs P X (callN P X n) n body ⟨env, h⟩ = .ok (.ret vs, st)) (hl : rs.length = vs.length) :
    callN P X (n + 1) rs env body h = .ok ((rs.zip vs).map fun (t, v) => coerce (zero P 3 t) v, st.heap) := by
  rw [callN, he, jumps_ret]
  simp only [hl, if_true]

/-- The two return statements. -/
theorem exec_end {h0 : Heap} {L : Locs} {sp : Option Nat} {m : Machine} {o : URN} (r : RepAt h0 h L sp m o) :
    execs prog X (callN prog X (c + 1)) F
      (.cons (ifS (.bin .or (.bin .lt (mSel "cs") (.id "firstFinal")) (.bin .eq (mSel "cs") (.id "enFail")))
        (.cons (.ret (.cons (.id "nil") (.cons (mSel "err") .nil))) .nil))
        (.cons (.ret (.cons (.id "output") (.cons (.id "nil") .nil))) .nil)) ⟨envOf L, h⟩ =
    .ok (.ret (if m.cs < Tables.firstFinal ∨ m.cs = Tables.enFail then [.nil, errVal m.err] else [.ptr "URN" (some L.ao), .nil]), ⟨envOf L, h⟩) := by
  have e1 : eval prog X (callN prog X (c + 1)) (.bin .lt (mSel "cs") (.id "firstFinal")) ⟨envOf L, h⟩ =
      .ok ([.bool (decide ((m.cs : Int) < 172))], ⟨envOf L, h⟩) :=
    eval_bin (op := .lt) ⟨by decide, by decide⟩ (eval_cs r) (y := .int "int" 172)
      (by have : get "firstFinal" (envOf L) = none := rfl
          simp only [eval, lookup, this, c_firstFinal]; rfl) (by rfl)
  have e2 : eval prog X (callN prog X (c + 1)) (.bin .eq (mSel "cs") (.id "enFail")) ⟨envOf L, h⟩ =
      .ok ([.bool (decide ((m.cs : Int) = 193))], ⟨envOf L, h⟩) :=
    eval_bin (op := .eq) ⟨by decide, by decide⟩ (eval_cs r) (y := .int "int" 193)
      (by have : get "enFail" (envOf L) = none := rfl
          simp only [eval, lookup, this, c_enFail]; rfl) (by rfl)
  have e3 := eval_or e1 e2
  by_cases hc : m.cs < Tables.firstFinal ∨ m.cs = Tables.enFail
  · have : (decide ((m.cs : Int) < 172) || decide ((m.cs : Int) = 193)) = true := by
      simp only [Tables.firstFinal, Tables.enFail] at hc
      simp
      omega
    rw [this] at e3
    simp only [hc, if_true]
    have hret : execs prog X (callN prog X (c + 1)) F (.cons (.ret (.cons (.id "nil") (.cons (mSel "err") .nil))) .nil) ⟨envOf L, h⟩ =
        .ok (.ret [.nil, errVal m.err], ⟨envOf L, h⟩) := by
      simp [execs, exec, evals, eval, one, lookup, get, envOf, c_nil, field, loadObj, r.mach, machVal]
    rw [execs, exec_if_true rfl e3 hret]
    rfl
  · have : (decide ((m.cs : Int) < 172) || decide ((m.cs : Int) = 193)) = false := by
      simp only [Tables.firstFinal, Tables.enFail] at hc
      simp
      omega
    rw [this] at e3
    simp only [hc, if_false]
    rw [execs_next (exec_ifS_false e3)]
    simp [execs, exec, evals, eval, one, lookup, get, envOf, c_nil]

theorem zero_urn : zero prog 3 (.ptr (.name "URN")) = .ptr "URN" none := by kernel_rfl
theorem zero_error : zero prog 3 (.name "error") = .nil := by kernel_rfl
theorem zero_bytes : zero prog 3 (.slice (.name "byte")) = .nil := by kernel_rfl

/-- A URN in memory, with its SCIM struct; both are at `lo` or later. -/
def UrnAt (h : Heap) (lo a : Nat) (o : URN) : Prop :=
  lo ≤ a ∧ ∃ sp, h[a]? = some (.obj (urnVal sp o)) ∧
    match o.scim with
    | none => sp = none
    | some s => ∃ b, sp = some b ∧ h[b]? = some (.obj (scimVal s)) ∧ lo ≤ b

/-- The text of `Parse` does what the model says, with an input that may be written to, or if the model does not write to it. -/
theorem parse_seen {r : Parsed} (hm : h[am]? = some (.obj (machVal (b0.val n0) m))) (hb : b.seen w h input)
    (hq : w.ro = true → parseWrites X.bits w.no m input = false) (hs : m.startParsingAt < 194) (hr : m.parseBits X.bits input = .ok r) (n : Nat) (hn : 9 * input.length + 70 ≤ n) :
    ∃ h' ao, runMethod prog X n (.ptr "machine" (some am)) "Parse" [b.val input.length] h =
        .ok ([.ptr "URN" (r.urn.map fun _ => ao), errVal r.err], h') ∧
      h'[am]? = some (.obj (machVal (b.val input.length) r.m)) ∧ b.seen w h' r.m.data ∧ r.m.data.length = input.length ∧
      (∀ u, r.urn = some u → UrnAt h' h.length ao u) ∧
      ∀ a, a < h.length → a ≠ am → b.away a → h'[a]? = h[a]? := by
  obtain ⟨c, rfl⟩ : ∃ c, n = c + 2 := ⟨n - 2, by omega⟩
  unfold Machine.parseBits at hr
  cases hrun : loopBits X.bits (fuelFor input.length) (Urn.entry (m.init input)) with
  | panic p => simp [hrun, bind, Run.bind] at hr
  | diverge => simp [hrun, bind, Run.bind] at hr
  | ok mo =>
  obtain ⟨m', o'⟩ := mo
  simp only [hrun, bind, Run.bind] at hr
  have r0 := start_rep hm hb
  have hm0 : (Urn.entry (m.init input)).m = m.init input ∧ (Urn.entry (m.init input)).o = { tolower := [] } := by
    unfold Urn.entry
    split
    · exact ⟨rfl, rfl⟩
    · split <;> exact ⟨rfl, rfl⟩
  obtain ⟨h', ⟨sp, r'⟩, e'⟩ := run_sim (X := X) (c := c) (F := c + 1) (fuelFor input.length) (Urn.entry (m.init input)) (startHeap am h b m input) m' o'
    (L := locs w am h b input) (by rw [hm0.1, hm0.2]; exact ⟨none, r0⟩) (by rw [hm0.1]; exact hs) hq hrun
  have hblk : exec prog X (callN prog X (c + 1)) (c + 1) (.block parseBlock)
      ⟨envOf (locs w am h b input), startHeap am h b m input⟩ = .ok (.next, ⟨envOf (locs w am h b input), h'⟩) := by
    refine exec_block (st := ⟨envOf (locs w am h b input), startHeap am h b m input⟩) (st' := ⟨envOf (locs w am h b input), h'⟩) rfl ?_
    rw [block_entry r0]
    apply e'
    simp only [fuelFor]
    split <;> omega
  have hx := exec_start (X := X) (F := c + 1) (call := callN prog X (c + 1)) hm hb
  rw [execs_next hblk, exec_end r'] at hx
  have hrun' : runMethod prog X (c + 2) (.ptr "machine" (some am)) "Parse" [b.val input.length] h =
      callN prog X (c + 2) [.ptr (.name "URN"), .name "error"]
        [("m", .ptr "machine" (some am)), ("input", b.val input.length)] parseBody h := by
    have hc : coerce .nil (b.val input.length) = b.val input.length := by simp [coerce]
    simp only [runMethod, method, find_parse, callFn, parseFn_eq, bindParams, Res.some!, bind, Res.bind, pure, zero_bytes, hc]
    rfl
  rw [hrun', callN_ret hx (by split <;> rfl)]
  simp only [pure] at hr
  cases hr
  have hsc : ∀ u, o' = u → UrnAt h' h.length h.length u := by
    rintro u rfl
    exact ⟨Nat.le_refl _, sp, r'.out, r'.scim⟩
  refine ⟨h', h.length, ?_, r'.mach, r'.buf, r'.len, ?_, r'.frame⟩
  · unfold result
    by_cases hc : m'.cs < Tables.firstFinal ∨ m'.cs = Tables.enFail
    · simp [hc, zero_urn, zero_error, coerce, locs]
    · simp [hc, zero_urn, zero_error, coerce, locs, errVal]
  · intro u hu
    apply hsc
    unfold result at hu
    by_cases hc : m'.cs < Tables.firstFinal ∨ m'.cs = Tables.enFail
    · simp [hc] at hu
    · simpa [hc] using hu
/-- **The text of `Parse` does what the model says.** -/
theorem parse_text {r : Parsed} (hm : h[am]? = some (.obj (machVal (b0.val n0) m))) (hb : b.has h input)
    (hs : m.startParsingAt < 194) (hr : m.parseBits X.bits input = .ok r) (n : Nat) (hn : 9 * input.length + 70 ≤ n) :
    ∃ h' ao, runMethod prog X n (.ptr "machine" (some am)) "Parse" [b.val input.length] h =
        .ok ([.ptr "URN" (r.urn.map fun _ => ao), errVal r.err], h') ∧
      h'[am]? = some (.obj (machVal (b.val input.length) r.m)) ∧ b.has h' r.m.data ∧ r.m.data.length = input.length ∧
      (∀ u, r.urn = some u → UrnAt h' h.length ao u) ∧
      ∀ a, a < h.length → a ≠ am → b.away a → h'[a]? = h[a]? := by
  obtain ⟨h', ao, h1, h2, h3, h4⟩ := parse_seen (X := X) hm (Buf.seen_has.2 hb) (fun e => by cases e) hs hr n hn
  exact ⟨h', ao, h1, h2, Buf.seen_has.1 h3, h4⟩
end

end Urn.GoLang
