import Verif.HxAux
/-!
# Properties of machines: histories of calls and options

C23, C24, C25, C44, C45 of `properties.jsonl`.
-/
set_option autoImplicit false
namespace Urn
open Spec

/-- The parsing modes that a sequence of calls selects, in order. -/
def modesOf : List Op → List ParsingMode
  | [] => []
  | .withParsingMode x :: ops => x :: modesOf ops
  | _ :: ops => modesOf ops

theorem modesOf_append (a b : List Op) : modesOf (a ++ b) = modesOf a ++ modesOf b := by
  induction a with
  | nil => rfl
  | cons op a ih => cases op <;> simp [modesOf, ih]

/-- `SameCfg m m'`: the two machines have the same configuration. -/
def SameCfg (m m' : Machine) : Prop :=
  m.startParsingAt = m'.startParsingAt ∧ m.parsingMode = m'.parsingMode ∧ m.parsingModeSet = m'.parsingModeSet

theorem SameCfg.mode {m m' : Machine} (h : SameCfg m m') (x : ParsingMode) : SameCfg (m.withParsingMode x) (m'.withParsingMode x) := by
  obtain ⟨h1, h2, h3⟩ := h
  simp only [Machine.withParsingMode, SameCfg]
  by_cases e1 : x = RFC2141Only
  · simp only [if_pos e1, and_self]
  · by_cases e2 : x = RFC8141Only
    · simp only [if_neg e1, if_pos e2, and_self]
    · by_cases e3 : x = RFC7643Only
      · simp only [if_neg e1, if_neg e2, if_pos e3, and_self]
      · simp only [if_neg e1, if_neg e2, if_neg e3, h1, and_self]

theorem SameCfg.foldl {a b : Machine} (h : SameCfg a b) (ms : List ParsingMode) :
    SameCfg (ms.foldl Machine.withParsingMode a) (ms.foldl Machine.withParsingMode b) := by
  induction ms generalizing a b with
  | nil => exact h
  | cons x ms ih => exact ih (h.mode x)

/-- Only the calls to `WithParsingMode` matter for the configuration. -/
theorem execAll_cfg {m m' : Machine} {ops : List Op} {outs : List Out} (hs : Start m.startParsingAt)
    (h : m.execAll ops = .ok (m', outs)) : SameCfg m' ((modesOf ops).foldl Machine.withParsingMode m) := by
  suffices ∀ m0, SameCfg m m0 → SameCfg m' ((modesOf ops).foldl Machine.withParsingMode m0) from this m ⟨rfl, rfl, rfl⟩
  induction ops generalizing m outs with
  | nil =>
    simp [Machine.execAll] at h
    intro m0 h0; rw [← h.1]; exact h0
  | cons op ops ih =>
    intro m0 h0
    obtain ⟨m1, o1, h1, h2⟩ := exec_ok hs op
    obtain ⟨m2, o2, h3, _⟩ := execAll_ok h2 ops
    simp only [Machine.execAll, h1, h3, Run.ok_bind, Run.pure_eq, Run.ok.injEq, Prod.mk.injEq] at h
    obtain ⟨rfl, _⟩ := h
    cases op with
    | parse s =>
      obtain ⟨mp, h4, _, _, h5, h6, h7⟩ := parse_ref m s hs
      simp only [Machine.exec, h4, Run.ok_bind, Run.pure_eq, Run.ok.injEq, Prod.mk.injEq] at h1
      obtain ⟨rfl, _⟩ := h1
      exact ih h2 h3 m0 ⟨h5.trans h0.1, h6.trans h0.2.1, h7.trans h0.2.2⟩
    | withParsingMode x =>
      simp [Machine.exec] at h1
      obtain ⟨rfl, _⟩ := h1
      exact ih h2 h3 _ (h0.mode x)
    | error =>
      simp [Machine.exec] at h1
      obtain ⟨rfl, _⟩ := h1
      exact ih h2 h3 _ h0

/-- Whatever was parsed before, machines with the same configuration return the same. -/
theorem parse_cfg {m m' : Machine} (hs : Start m.startParsingAt) (h : SameCfg m m') (s : Bytes) (r r' : Parsed)
    (hr : m.parse s = .ok r) (hr' : m'.parse s = .ok r') : r.urn = r'.urn ∧ r.err = r'.err := by
  obtain ⟨x, h1, _⟩ := parse_ref m s hs
  obtain ⟨y, h2, _⟩ := parse_ref m' s (by rw [← h.1]; exact hs)
  rw [h1] at hr; rw [h2] at hr'; simp at hr hr'
  subst hr hr'
  simp [h.1, h.2.1]

/-- The effect of the modes on the entry point and the mode. -/
theorem foldl_mode (m : Machine) (ms : List ParsingMode) :
    (∀ x ms', ms = ms' ++ [x] → KnownMode x →
      SameCfg (ms.foldl Machine.withParsingMode m) { startParsingAt := startOf x, parsingMode := x, parsingModeSet := true }) := by
  rintro x ms' rfl hx
  rw [List.foldl_append]
  generalize ms'.foldl Machine.withParsingMode m = m1
  show SameCfg (m1.withParsingMode x) _
  rcases hx with rfl | rfl | rfl <;> exact ⟨rfl, rfl, rfl⟩

theorem foldl_set (m : Machine) (ms : List ParsingMode) :
    (ms.foldl Machine.withParsingMode m).parsingModeSet = (m.parsingModeSet || !ms.isEmpty) := by
  induction ms generalizing m with
  | nil => simp
  | cons x ms ih => rw [List.foldl_cons, ih]; simp [Machine.withParsingMode]

/-- The configuration of a machine after options and calls. -/
theorem reach_cfg {opts : List Opt} {ops : List Op} {m0 m : Machine} {outs : List Out} (h0 : newMachine opts = .ok m0)
    (h : m0.execAll ops = .ok (m, outs)) :
    SameCfg m ((modesOf ops).foldl Machine.withParsingMode
      ((if modesOf opts.flatten = [] then [DefaultParsingMode] else modesOf opts.flatten).foldl Machine.withParsingMode {})) := by
  have hs := newMachine_start h0
  have h1 := execAll_cfg hs h
  suffices SameCfg m0 ((if modesOf opts.flatten = [] then [DefaultParsingMode] else modesOf opts.flatten).foldl Machine.withParsingMode {}) by
    have := this.foldl (modesOf ops)
    exact ⟨h1.1.trans this.1, h1.2.1.trans this.2.1, h1.2.2.trans this.2.2⟩
  obtain ⟨m1, outs1, h2, _⟩ := execAll_ok (m := { parsingModeSet := false }) (Or.inl rfl) opts.flatten
  have h3 := execAll_cfg (m := { parsingModeSet := false }) (Or.inl rfl) h2
  simp only [newMachine, h2, Run.ok_bind, Run.pure_eq, Run.ok.injEq] at h0
  have hset := h3.2.2
  rw [foldl_set] at hset
  by_cases hm : modesOf opts.flatten = []
  · rw [hm] at h3 hset
    simp at hset h3
    rw [hset] at h0
    simp at h0
    rw [hm, ← h0]
    exact h3.mode _
  · rw [if_neg hm]
    have : m1.parsingModeSet = true := by
      rw [hset]; cases hx : modesOf opts.flatten <;> simp_all
    rw [this] at h0; simp at h0; rw [← h0]; exact h3

/-! ## C23: reuse -/

/-- Two machines, made with options and used in ways that select the same modes, return the same
for the next input, whatever inputs they were given before. -/
theorem C23_history (opts opts' : List Opt) (ops ops' : List Op) (ho : modesOf opts.flatten = modesOf opts'.flatten)
    (hm : modesOf ops = modesOf ops') (m0 m0' m m' : Machine) (outs outs' : List Out)
    (h0 : newMachine opts = .ok m0) (h0' : newMachine opts' = .ok m0') (h : m0.execAll ops = .ok (m, outs)) (h' : m0'.execAll ops' = .ok (m', outs'))
    (s : Bytes) (r r' : Parsed) (hr : m.parse s = .ok r) (hr' : m'.parse s = .ok r') : r.urn = r'.urn ∧ r.err = r'.err := by
  have h1 := reach_cfg h0 h
  have h2 := reach_cfg h0' h'
  rw [ho, hm] at h1
  exact parse_cfg (execAll_start h (newMachine_start h0)) ⟨h1.1.trans h2.1.symm, h1.2.1.trans h2.2.1.symm, h1.2.2.trans h2.2.2.symm⟩ s r r' hr hr'

/-- The same modes, in options or in calls, and different calls in between. -/
example : ∃ m0 m outs r r', newMachine [withParsingMode RFC8141Only] = .ok m0 ∧ m0.execAll Cases.ops = .ok (m, outs) ∧
    m.parse Cases.s8141 = .ok r ∧ (Cases.m RFC8141Only).parse Cases.s8141 = .ok r' ∧ r.urn = r'.urn ∧ r.err = r'.err := by
  obtain ⟨m, outs, h, hm⟩ := Cases.execs (Cases.reach RFC8141Only) Cases.ops
  obtain ⟨r, hr⟩ := Cases.returns hm Cases.s8141
  obtain ⟨r', hr'⟩ := Cases.returns (Cases.reach RFC8141Only) Cases.s8141
  exact ⟨_, m, outs, r, r', Cases.new _, h, hr, hr',
    C23_history _ _ Cases.ops [] rfl rfl _ _ _ _ _ [] (Cases.new _) (Cases.new _) h rfl _ _ _ hr hr'⟩

/-- If the mode selected last is a known one (or none was selected at all), the machine returns
what a fresh machine in that mode (in RFC 2141 mode) returns. -/
theorem C23_reuse (opts : List Opt) (ops : List Op) (x : ParsingMode) (hx : KnownMode x)
    (hl : (∃ ms, modesOf opts.flatten ++ modesOf ops = ms ++ [x]) ∨ (modesOf opts.flatten ++ modesOf ops = [] ∧ x = RFC2141Only))
    (m0 m f : Machine) (outs : List Out) (h0 : newMachine opts = .ok m0) (h : m0.execAll ops = .ok (m, outs))
    (hf : newMachine [withParsingMode x] = .ok f) (s : Bytes) (r r' : Parsed) (hr : m.parse s = .ok r) (hr' : f.parse s = .ok r') :
    r.urn = r'.urn ∧ r.err = r'.err := by
  have h1 := reach_cfg h0 h
  rw [← List.foldl_append] at h1
  rw [newMachine_mode] at hf; simp at hf
  have h2 : SameCfg m f := by
    rw [← hf]
    have : ∃ ms, (if modesOf opts.flatten = [] then [DefaultParsingMode] else modesOf opts.flatten) ++ modesOf ops = ms ++ [x] := by
      rcases hl with ⟨ms, hl⟩ | ⟨hl, rfl⟩
      · by_cases e : modesOf opts.flatten = []
        · rw [e] at hl
          exact ⟨DefaultParsingMode :: ms, by rw [if_pos e]; simpa using hl⟩
        · exact ⟨ms, by rw [if_neg e]; exact hl⟩
      · simp at hl
        exact ⟨[], by rw [if_pos hl.1, hl.2]; rfl⟩
    obtain ⟨ms, hms⟩ := this
    have h3 := foldl_mode {} _ x ms hms hx
    exact ⟨h1.1.trans h3.1, h1.2.1.trans h3.2.1, h1.2.2.trans h3.2.2⟩
  exact parse_cfg (execAll_start h (newMachine_start h0)) h2 s r r' hr hr'

example : ∃ m outs r r', (Cases.m RFC8141Only).execAll (Cases.ops ++ [.withParsingMode RFC7643Only]) = .ok (m, outs) ∧
    m.parse Cases.s7643 = .ok r ∧ (Cases.m RFC7643Only).parse Cases.s7643 = .ok r' ∧ r.urn = r'.urn ∧ r.err = r'.err := by
  obtain ⟨m, outs, h, hm⟩ := Cases.execs (Cases.reach RFC8141Only) (Cases.ops ++ [.withParsingMode RFC7643Only])
  obtain ⟨r, hr⟩ := Cases.returns hm Cases.s7643
  obtain ⟨r', hr'⟩ := Cases.returns (Cases.reach RFC7643Only) Cases.s7643
  exact ⟨m, outs, r, r', h, hr, hr', C23_reuse [withParsingMode RFC8141Only] _ _ Cases.k7643 (Or.inl ⟨[RFC8141Only], rfl⟩) _ _ _ _
    (Cases.new _) h (Cases.new _) _ _ _ hr hr'⟩

/-- A history with successful and failing parses, and a change of mode. -/
example : (∃ ms, modesOf ([withParsingMode RFC8141Only] : List Opt).flatten ++
      modesOf [.parse (lit "urn:ab:c?+d"), .withParsingMode RFC7643Only, .parse (lit "x"), .error] = ms ++ [RFC7643Only]) :=
  ⟨[RFC8141Only], rfl⟩

/-- Together with the results of earlier calls: any interleaving of earlier calls. -/
theorem C23_after (m m' : Machine) (hm : Reachable m) (ops : List Op) (outs : List Out) (h : m.execAll ops = .ok (m', outs))
    (hops : modesOf ops = []) (s : Bytes) (r r' : Parsed) (hr : m.parse s = .ok r) (hr' : m'.parse s = .ok r') :
    r.urn = r'.urn ∧ r.err = r'.err := by
  have h1 := execAll_cfg hm.start h
  rw [hops] at h1
  exact parse_cfg hm.start ⟨h1.1.symm, h1.2.1.symm, h1.2.2.symm⟩ s r r' hr hr'

example : ∃ m outs r r', (Cases.m RFC8141Only).execAll Cases.ops = .ok (m, outs) ∧ (Cases.m RFC8141Only).parse Cases.s8141 = .ok r ∧
    m.parse Cases.s8141 = .ok r' ∧ r.urn = r'.urn ∧ r.err = r'.err := by
  obtain ⟨m, outs, h, hm⟩ := Cases.execs (Cases.reach RFC8141Only) Cases.ops
  obtain ⟨r, hr⟩ := Cases.returns (Cases.reach RFC8141Only) Cases.s8141
  obtain ⟨r', hr'⟩ := Cases.returns hm Cases.s8141
  exact ⟨m, outs, r, r', h, hr, hr', C23_after _ _ (Cases.reach _) _ _ h rfl _ _ _ hr hr'⟩

/-! ## C21: a machine that was only ever given unknown modes -/

theorem foldl_unknown (ms : List ParsingMode) (m : Machine) (hu : ∀ x ∈ ms, ¬ KnownMode x) :
    (ms.foldl Machine.withParsingMode m).startParsingAt = m.startParsingAt := by
  induction ms generalizing m with
  | nil => rfl
  | cons x ms ih =>
    have hx := hu x List.mem_cons_self
    simp only [KnownMode, not_or] at hx
    rw [List.foldl_cons, ih _ fun y hy => hu y (List.mem_cons_of_mem _ hy)]
    simp only [Machine.withParsingMode, hx, if_false]

/-- A machine whose options select a mode, all modes that it was ever given being unknown ones: `Parse` returns neither a URN
nor an error, whatever else was done with the machine. -/
theorem C21_neither_history (opts : List Opt) (ops : List Op) (hne : modesOf opts.flatten ≠ [])
    (hu : ∀ x ∈ modesOf opts.flatten ++ modesOf ops, ¬ KnownMode x) (m0 m : Machine) (outs : List Out)
    (h0 : newMachine opts = .ok m0) (h : m0.execAll ops = .ok (m, outs)) (s : Bytes) (r : Parsed) (hr : m.parse s = .ok r) :
    r.urn = none ∧ r.err = none := by
  have h1 := reach_cfg h0 h
  rw [if_neg hne, ← List.foldl_append] at h1
  have hst : m.startParsingAt = 0 := h1.1.trans (foldl_unknown _ _ hu)
  obtain ⟨f, h2, _⟩ := parse_ref m s (execAll_start h (newMachine_start h0))
  rw [h2] at hr
  simp only [Run.ok.injEq] at hr
  rw [← hr, hst]
  exact ⟨rfl, rfl⟩

example : ∃ m outs r, (Cases.m 7).execAll [.parse Cases.s8141, .withParsingMode 9] = .ok (m, outs) ∧ m.parse Cases.s8141 = .ok r ∧
    r.urn = none ∧ r.err = none := by
  obtain ⟨m, outs, h, hm⟩ := Cases.execs (Cases.reach 7) [.parse Cases.s8141, .withParsingMode 9]
  obtain ⟨r, hr⟩ := Cases.returns hm Cases.s8141
  exact ⟨m, outs, r, h, hr, C21_neither_history [withParsingMode 7] _ (by decide) (by unfold KnownMode; decide) _ _ _ (Cases.new 7) h _ _ hr⟩

/-! ## C24: `Error()` -/

/-- The error of the last `Parse` in a list of results, `e0` if there is none. -/
def lastErr (e0 : Option Err) : List Out → Option Err
  | [] => e0
  | .parsed _ e :: outs => lastErr e outs
  | _ :: outs => lastErr e0 outs

theorem error_exec {m m' : Machine} (hs : Start m.startParsingAt) {op : Op} {out : Out} (h : m.exec op = .ok (m', out)) :
    m'.error = lastErr m.error [out] := by
  cases op with
  | parse s =>
    obtain ⟨mp, h4, _, h5, _⟩ := parse_ref m s hs
    simp only [Machine.exec, h4, Run.ok_bind, Run.pure_eq, Run.ok.injEq, Prod.mk.injEq] at h
    obtain ⟨rfl, rfl⟩ := h
    exact h5
  | withParsingMode x =>
    simp [Machine.exec] at h
    obtain ⟨rfl, rfl⟩ := h
    simp only [lastErr, Machine.error, Machine.withParsingMode]
    split
    · rfl
    · split
      · rfl
      · split <;> rfl
  | error =>
    simp [Machine.exec] at h
    obtain ⟨rfl, rfl⟩ := h
    rfl

theorem lastErr_cons (e0 : Option Err) (o : Out) (outs : List Out) : lastErr e0 (o :: outs) = lastErr (lastErr e0 [o]) outs := by
  cases o <;> rfl

/-- After any calls, `Error()` is the error of the last `Parse` among them, and the earlier one if there was none. -/
theorem C24_error (m m' : Machine) (hm : Reachable m) (ops : List Op) (outs : List Out) (h : m.execAll ops = .ok (m', outs)) :
    m'.error = lastErr m.error outs := by
  have hs := hm.start
  clear hm
  induction ops generalizing m outs with
  | nil => simp [Machine.execAll] at h; rw [h.2, ← h.1]; rfl
  | cons op ops ih =>
    obtain ⟨m1, o1, h1, h2⟩ := exec_ok hs op
    obtain ⟨m2, o2, h3, _⟩ := execAll_ok h2 ops
    simp only [Machine.execAll, h1, h3, Run.ok_bind, Run.pure_eq, Run.ok.injEq, Prod.mk.injEq] at h
    obtain ⟨rfl, rfl⟩ := h
    rw [lastErr_cons, ← error_exec hs h1]
    exact ih m1 o2 h3 h2

example : ∃ m outs, (Cases.m RFC8141Only).execAll Cases.ops = .ok (m, outs) ∧ m.error = lastErr none outs := by
  obtain ⟨m, outs, h, _⟩ := Cases.execs (Cases.reach RFC8141Only) Cases.ops
  exact ⟨m, outs, h, C24_error _ _ (Cases.reach _) _ _ h⟩

/-- The results of the `Error()` calls inside a history. -/
theorem C24_error_calls (m m' : Machine) (hm : Reachable m) (a b : List Op) (outs : List Out)
    (h : m.execAll (a ++ .error :: b) = .ok (m', outs)) :
    ∃ oa ob, outs = oa ++ .err (lastErr m.error oa) :: ob ∧ oa.length = a.length := by
  rw [execAll_append] at h
  obtain ⟨m1, oa, h1, _⟩ := execAll_ok hm.start a
  obtain ⟨m2, ob, h2, _⟩ := execAll_ok (execAll_start h1 hm.start) (Op.error :: b)
  rw [h1, Run.ok_bind] at h
  simp only [h2, Run.ok_bind, Run.ok.injEq, Prod.mk.injEq] at h
  obtain ⟨rfl, rfl⟩ := h
  have h4 := C24_error m m1 hm a oa h1
  simp only [Machine.execAll, Machine.exec, Run.pure_eq, Run.ok_bind] at h2
  cases h3 : m1.execAll b with
  | ok x =>
    rw [h3] at h2; simp at h2
    refine ⟨oa, x.2, ?_, ?_⟩
    · rw [← h2.2, ← h4]
    · obtain ⟨opts, ops0, m00, outs0, e1, e2⟩ := hm
      have := execAll_length h1
      exact this
  | panic => rw [h3] at h2; simp at h2
  | diverge => rw [h3] at h2; simp at h2

example : ∃ m outs oa ob, (Cases.m RFC8141Only).execAll Cases.ops = .ok (m, outs) ∧ outs = oa ++ .err (lastErr none oa) :: ob ∧
    oa.length = 2 := by
  obtain ⟨m, outs, h, _⟩ := Cases.execs (Cases.reach RFC8141Only) Cases.ops
  obtain ⟨oa, ob, h1, h2⟩ := C24_error_calls _ m (Cases.reach _) [.parse Cases.s8141, .parse (lit "urn:ab")] [] outs h
  exact ⟨m, outs, oa, ob, h, h1, h2⟩

/-- Before the first `Parse`, `Error()` is nil (options that only select modes). -/
theorem C24_initially_nil (ms : List ParsingMode) (m : Machine) (h : newMachine (ms.map withParsingMode) = .ok m) : m.error = none := by
  have key : ∀ (m0 m' : Machine) (outs : List Out), m0.error = none → m0.execAll ((ms.map withParsingMode).flatten) = .ok (m', outs) → m'.error = none := by
    clear h
    induction ms with
    | nil => intro m0 m' outs h0 h; simp [Machine.execAll] at h; rw [← h.1]; exact h0
    | cons x ms ih =>
      intro m0 m' outs h0 h
      simp only [List.map_cons, List.flatten_cons, withParsingMode, List.cons_append, List.nil_append, Machine.execAll, Machine.exec, Run.pure_eq, Run.ok_bind] at h
      cases h3 : (m0.withParsingMode x).execAll ((ms.map withParsingMode).flatten) with
      | ok y =>
        rw [h3] at h; simp at h
        refine ih (m0.withParsingMode x) m' y.2 ?_ (by rw [h3, ← h.1])
        rw [← h0]; simp only [Machine.error, Machine.withParsingMode]
        split
        · rfl
        · split
          · rfl
          · split <;> rfl
      | panic => rw [h3] at h; simp at h
      | diverge => rw [h3] at h; simp at h
  simp only [newMachine] at h
  cases h3 : ({ parsingModeSet := false } : Machine).execAll ((ms.map withParsingMode).flatten) with
  | ok y =>
    rw [h3] at h; simp at h
    have := key _ y.1 y.2 rfl h3
    rw [← h]
    split
    · exact this
    · exact this
  | panic => rw [h3] at h; simp at h
  | diverge => rw [h3] at h; simp at h

example : (Cases.m RFC8141Only).error = none := C24_initially_nil [RFC8141Only] _ (Cases.new _)

/-- The returned error and `Error()` right after. -/
theorem C24_returned (m : Machine) (hm : Reachable m) (s : Bytes) (r : Parsed) (h : m.parse s = .ok r) : r.m.error = r.err := by
  obtain ⟨mp, h4, _, h5, _⟩ := parse_ref m s hm.start
  rw [h4] at h; simp at h; subst h; exact h5

example : ∃ r, (Cases.m RFC2141Only).parse (lit "urn:a:b*/c") = .ok r ∧ r.m.error = some ⟨.specificString, 8⟩ := by
  obtain ⟨r, h, _, he⟩ := Cases.parses RFC2141Only (lit "urn:a:b*/c")
  exact ⟨r, h, (C24_returned _ (Cases.reach _) _ r h).trans (he.trans (by decide))⟩

/-! ## C25: options -/

theorem C25_default : newMachine [] = newMachine [withParsingMode RFC2141Only] ∧ ∀ s, parse s [] = parse s [withParsingMode RFC2141Only] :=
  ⟨newMachine_default, parse_default⟩

theorem exec_modes (m : Machine) (ms : List ParsingMode) :
    m.execAll ((ms.map withParsingMode).flatten) = .ok (ms.foldl Machine.withParsingMode m, ms.map fun _ => .unit) := by
  induction ms generalizing m with
  | nil => rfl
  | cons x ms ih =>
    simp only [List.map_cons, List.flatten_cons, withParsingMode, List.cons_append, List.nil_append, Machine.execAll, Machine.exec, Run.pure_eq, Run.ok_bind]
    rw [show (List.map withParsingMode ms).flatten = (ms.map withParsingMode).flatten from rfl, ih]
    rfl

theorem mode_eq (m : Machine) (x : ParsingMode) :
    ∃ st, m.withParsingMode x = { m with startParsingAt := st, parsingMode := x, parsingModeSet := true } := by
  simp only [Machine.withParsingMode]
  split
  · exact ⟨_, rfl⟩
  · split
    · exact ⟨_, rfl⟩
    · split <;> exact ⟨_, rfl⟩

theorem mode_known (m : Machine) {y : ParsingMode} (hy : KnownMode y) :
    m.withParsingMode y = { m with startParsingAt := startOf y, parsingMode := y, parsingModeSet := true } := by
  rcases hy with rfl | rfl | rfl <;> rfl

theorem mode_mode (m : Machine) (x y : ParsingMode) (hy : KnownMode y) : (m.withParsingMode x).withParsingMode y = m.withParsingMode y := by
  obtain ⟨st, e⟩ := mode_eq m x
  rw [mode_known _ hy, mode_known _ hy, e]

/-- Several modes, the last of them known: the machine is the one made with the last alone. -/
theorem C25_last_wins (ms : List ParsingMode) (x : ParsingMode) (hx : KnownMode x) :
    newMachine ((ms ++ [x]).map withParsingMode) = newMachine [withParsingMode x] := by
  have key : ∀ (m : Machine), (ms ++ [x]).foldl Machine.withParsingMode m = m.withParsingMode x := by
    induction ms with
    | nil => intro m; rfl
    | cons y ms ih => intro m; rw [List.cons_append, List.foldl_cons, ih, mode_mode m y x hx]
  have h1 := exec_modes { parsingModeSet := false } (ms ++ [x])
  have h2 := exec_modes { parsingModeSet := false } [x]
  rw [key] at h1
  simp only [List.map_cons, List.map_nil, List.foldl_cons, List.foldl_nil] at h2
  simp only [newMachine, h1, h2, Run.ok_bind]

example : newMachine [withParsingMode RFC8141Only, withParsingMode 7, withParsingMode RFC7643Only] = newMachine [withParsingMode RFC7643Only] :=
  C25_last_wins [RFC8141Only, 7] _ Cases.k7643

theorem C25_last_wins_parse (ms : List ParsingMode) (x : ParsingMode) (hx : KnownMode x) (s : Bytes) :
    parse s ((ms ++ [x]).map withParsingMode) = parse s [withParsingMode x] := by
  simp only [parse, C25_last_wins ms x hx]

example : parse Cases.s7643 [withParsingMode RFC8141Only, withParsingMode 7, withParsingMode RFC7643Only] =
    parse Cases.s7643 [withParsingMode RFC7643Only] :=
  C25_last_wins_parse [RFC8141Only, 7] _ Cases.k7643 _

/-- Options are applied left to right: first all of `a`, then all of `b`, then the default if none set a mode. -/
theorem C25_left_to_right (a b : List Opt) :
    newMachine (a ++ b) = (({} : Machine).execAll a.flatten >>= fun x => x.1.execAll b.flatten >>= fun y =>
      .ok (if y.1.parsingModeSet then y.1 else y.1.withParsingMode RFC2141Only)) := by
  simp only [newMachine, List.flatten_append, execAll_append]
  show (({} : Machine).execAll a.flatten >>= _) >>= _ = _
  cases ({} : Machine).execAll a.flatten with
  | ok x =>
    simp only [Run.ok_bind]
    cases x.1.execAll b.flatten <;> rfl
  | panic => rfl
  | diverge => rfl

/-! ## C44: the zero mode -/

/-- `WithParsingMode(Default)` does not select the default mode: every `Parse` returns `nil, true`. -/
theorem C44_refuted (s : Bytes) : parse s [withParsingMode DefaultMode] = .ok ⟨none, true, s⟩ := by
  rw [parse_mode]; rfl

/-- The same for every unknown mode. -/
theorem C44_unknown_refuted (mode : ParsingMode) (h : ¬ KnownMode mode) (s : Bytes) : parse s [withParsingMode mode] = .ok ⟨none, true, s⟩ := by
  rw [parse_mode]
  have h0 : startOf mode = 0 := by
    simp only [KnownMode, not_or] at h
    simp [startOf, h]
  simp [refMode, refFrom, h0]

example : ¬ KnownMode DefaultMode ∧ ¬ KnownMode 4 ∧ ¬ KnownMode (-1) := by unfold KnownMode; decide

/-- Giving no option is the same as giving `DefaultParsingMode`, and `Default` is not the same as that:
nothing is ever accepted with it. -/
theorem C44_default (s : Bytes) : parse s [] = parse s [withParsingMode DefaultParsingMode] ∧ ¬ Accepts DefaultMode s := by
  refine ⟨rfl, ?_⟩
  rintro ⟨u, r, h1, h2⟩
  rw [C44_refuted] at h1; simp at h1; rw [← h1] at h2; simp at h2

/-! ## C45: an unknown mode given to a configured machine -/

/-- A machine in mode `x` that is then given the unknown mode `y`. -/
theorem unknown_cfg (x y : ParsingMode) (hx : KnownMode x) (hy : ¬ KnownMode y) (f : Machine)
    (hf : newMachine [withParsingMode x, withParsingMode y] = .ok f) :
    f.startParsingAt = startOf x ∧ f.parsingMode = y ∧ f.parsingModeSet = true := by
  have h2 := exec_modes { parsingModeSet := false } [x, y]
  simp only [List.map_cons, List.map_nil, List.foldl_cons, List.foldl_nil] at h2
  simp only [newMachine, h2, Run.ok_bind, Run.pure_eq, Run.ok.injEq] at hf
  simp only [KnownMode, not_or] at hy
  rw [← hf]
  rw [mode_known _ hx]
  simp only [Machine.withParsingMode, hy.1, hy.2.1, hy.2.2, if_false, if_true, and_self]

theorem flags_unknown {y : ParsingMode} (hy : ¬ KnownMode y) : flagsOf y = ⟨false, true⟩ := by
  simp only [KnownMode, not_or] at hy
  simp [flagsOf, hy]

/-- The results of a machine that is in mode `x`, and of the same machine that is then given the
unknown mode `y`. -/
theorem unknown_ref (m : Machine) (x y : ParsingMode) (hx : KnownMode x) (hy : ¬ KnownMode y) (s : Bytes) (r r' : Parsed)
    (h : ((m.withParsingMode x).withParsingMode y).parse s = .ok r) (h' : (m.withParsingMode x).parse s = .ok r') :
    (r.urn, r.err) = refFrom (startOf x) y s ∧ (r'.urn, r'.err) = refFrom (startOf x) x s ∧ r.m.data = s ∧ r'.m.data = s := by
  have hst : (m.withParsingMode x).startParsingAt = startOf x := by rw [mode_known m hx]
  have hmo : (m.withParsingMode x).parsingMode = x := by rw [mode_known m hx]
  have hst' : ((m.withParsingMode x).withParsingMode y).startParsingAt = startOf x := by
    simp only [KnownMode, not_or] at hy
    simp only [Machine.withParsingMode.eq_def (m.withParsingMode x) y, hy, if_false, hst]
  have hmo' : ((m.withParsingMode x).withParsingMode y).parsingMode = y := by
    simp only [KnownMode, not_or] at hy
    simp only [Machine.withParsingMode.eq_def (m.withParsingMode x) y, hy, if_false]
  obtain ⟨f, h1, h2, _⟩ := parse_ref _ s (by rw [hst']; exact start_startOf x)
  obtain ⟨f', h1', h2', _⟩ := parse_ref _ s (by rw [hst]; exact start_startOf x)
  rw [h1] at h; rw [h1'] at h'
  simp at h h'
  rw [← h, ← h', hst, hmo, hst', hmo']
  exact ⟨rfl, rfl, h2, h2'⟩

/-- In RFC 7643 mode nothing changes. -/
theorem C45_7643 (m : Machine) (y : ParsingMode) (hy : ¬ KnownMode y) (s : Bytes) (r r' : Parsed)
    (h : ((m.withParsingMode RFC7643Only).withParsingMode y).parse s = .ok r)
    (h' : (m.withParsingMode RFC7643Only).parse s = .ok r') : r.urn = r'.urn ∧ r.err = r'.err := by
  obtain ⟨h1, h2, _⟩ := unknown_ref m _ y (Or.inr (Or.inl rfl)) hy s r r' h h'
  have e : refFrom (startOf RFC7643Only) y s = refFrom (startOf RFC7643Only) RFC7643Only s := by
    show refScim (flagsOf y) s = _
    rw [flags_unknown hy]; rfl
  rw [e, ← h2] at h1
  simpa using h1

example : ∃ r r', ((({} : Machine).withParsingMode RFC7643Only).withParsingMode 7).parse Cases.s7643 = .ok r ∧
    (({} : Machine).withParsingMode RFC7643Only).parse Cases.s7643 = .ok r' ∧ r.urn = r'.urn ∧ r.err = r'.err := by
  obtain ⟨f, h, _⟩ := parse_ref ((({} : Machine).withParsingMode RFC7643Only).withParsingMode 7) Cases.s7643 (Or.inr (Or.inr (Or.inl rfl)))
  obtain ⟨f', h', _⟩ := parse_ref (({} : Machine).withParsingMode RFC7643Only) Cases.s7643 (Or.inr (Or.inr (Or.inl rfl)))
  exact ⟨_, _, h, h', C45_7643 _ 7 (by unfold KnownMode; decide) _ _ _ h h'⟩

/-- In RFC 2141 mode only this changes: the error of a malformed escape becomes the general error of
the specific string, at the same column. -/
theorem C45_2141 (m : Machine) (y : ParsingMode) (hy : ¬ KnownMode y) (s : Bytes) (r r' : Parsed)
    (h : ((m.withParsingMode RFC2141Only).withParsingMode y).parse s = .ok r)
    (h' : (m.withParsingMode RFC2141Only).parse s = .ok r') :
    r.urn = r'.urn ∧ (∀ c, r'.err = some ⟨.hex, c⟩ → r.err = some ⟨.specificString, c⟩) ∧
      ((∀ c, r'.err ≠ some ⟨.hex, c⟩) → r.err = r'.err) := by
  obtain ⟨h1, h2, _⟩ := unknown_ref m _ y (Or.inl rfl) hy s r r' h h'
  have e : refFrom (startOf RFC2141Only) y s = ref2141 ⟨false, true⟩ s := by rw [← flags_unknown hy]; rfl
  have e' : refFrom (startOf RFC2141Only) RFC2141Only s = ref2141 ⟨true, true⟩ s := rfl
  rw [e, ref2141_unhex, ← e', ← h2] at h1
  simp only [Prod.mk.injEq] at h1
  refine ⟨h1.1, ?_, ?_⟩
  · intro c hc; rw [h1.2, hc]; rfl
  · intro hc
    rw [h1.2]
    cases he : r'.err with
    | none => rfl
    | some e =>
      have : e.kind ≠ .hex := by
        intro hk; apply hc e.col; rw [he, ← hk]
      simp [unhex, this]

/-- Both cases occur: the kind of the error changes, at the same column. -/
example : (∃ r, ((({} : Machine).withParsingMode RFC2141Only).withParsingMode DefaultMode).parse (lit "urn:a:%x!") = .ok r ∧
      r.err = some ⟨.specificString, 8⟩) ∧
    (∃ r, (({} : Machine).withParsingMode RFC2141Only).parse (lit "urn:a:%x!") = .ok r ∧ r.err = some ⟨.hex, 8⟩) := by
  constructor
  · obtain ⟨f, h1, _⟩ := parse_ref ((({} : Machine).withParsingMode RFC2141Only).withParsingMode DefaultMode) (lit "urn:a:%x!") (Or.inr (Or.inl rfl))
    exact ⟨_, h1, by simp only []; decide⟩
  · obtain ⟨f, h1, _⟩ := parse_ref (({} : Machine).withParsingMode RFC2141Only) (lit "urn:a:%x!") (Or.inr (Or.inl rfl))
    exact ⟨_, h1, by simp only []; decide⟩

/-- In RFC 8141 mode the reserved word check of RFC 2141 mode is switched on, and the error of a malformed
escape becomes at the same column that of a component, if there is a question mark before, or of the specific
string, if there is none; in a fragment, which is after a `#`, it disappears.  Nothing else changes. -/
theorem C45_8141_outcome (m : Machine) (y : ParsingMode) (hy : ¬ KnownMode y) (s : Bytes) (r r' : Parsed)
    (h : ((m.withParsingMode RFC8141Only).withParsingMode y).parse s = .ok r)
    (h' : (m.withParsingMode RFC8141Only).parse s = .ok r') :
    (((∃ pre rest, s = pre ++ 58 :: rest ∧ IsUrn pre) ∧ (s[4]? = some 117 ∨ s[4]? = some 85) ∧ s[7]? = some 58) →
      r.urn = none ∧ r.err = some ⟨.noUrnWithinID, 7⟩) ∧
    (¬ ((∃ pre rest, s = pre ++ 58 :: rest ∧ IsUrn pre) ∧ (s[4]? = some 117 ∨ s[4]? = some 85) ∧ s[7]? = some 58) →
      r.urn = r'.urn ∧ ((∀ c, r'.err ≠ some ⟨.hex, c⟩) → r.err = r'.err) ∧
      ∀ c, r'.err = some ⟨.hex, c⟩ →
        (35 ∈ s.take c.toNat → r.err = none) ∧
        (35 ∉ s.take c.toNat → 63 ∈ s.take c.toNat → r.err = some ⟨.malformedRComp8141, c⟩ ∨ r.err = some ⟨.malformedQComp8141, c⟩) ∧
        (35 ∉ s.take c.toNat → 63 ∉ s.take c.toNat → r.err = some ⟨.specificString8141, c⟩)) := by
  obtain ⟨h1, h2, _⟩ := unknown_ref m _ y (Or.inr (Or.inr rfl)) hy s r r' h h'
  have e : refFrom (startOf RFC8141Only) y s = ref8141 ⟨false, true⟩ s := by rw [← flags_unknown hy]; rfl
  have e' : refFrom (startOf RFC8141Only) RFC8141Only s = ref8141 ⟨true, false⟩ s := rfl
  rw [e] at h1; rw [e'] at h2
  rw [← lookahead_iff]
  rcases ref8141_unhex s with ⟨h3, h4, h5⟩ | ⟨h3, h4⟩
  · rw [h3] at h1
    simp only [bad, Prod.mk.injEq] at h1
    exact ⟨fun _ => h1, fun h => absurd ⟨h5, h4⟩ h⟩
  · rw [← h1, ← h2] at h3
    refine ⟨fun h => absurd ⟨h.2, h.1⟩ h4, fun _ => ?_⟩
    rcases h3 with h3 | ⟨c, h5, h6⟩
    · simp only [Prod.mk.injEq] at h3
      refine ⟨h3.1, fun _ => h3.2, ?_⟩
      intro c hc
      exfalso
      -- the outcome without escape errors has none
      rw [← h3.2] at hc
      have : (ref8141 ⟨false, true⟩ s).2 = some ⟨.hex, c⟩ := by rw [← h1]; exact hc
      exact ref8141_nohex this
    · simp only [bad, Prod.mk.injEq] at h5
      have hu : r.urn = none := by
        unfold Instead at h6
        split at h6
        · exact congrArg Prod.fst h6
        · split at h6
          · rcases h6 with h6 | h6 <;> exact congrArg Prod.fst h6
          · exact congrArg Prod.fst h6
      refine ⟨by rw [h5.1, hu], fun h => absurd h5.2 (h _), fun c' hc => ?_⟩
      rw [h5.2] at hc
      simp only [Option.some.injEq, Err.mk.injEq, true_and] at hc
      subst hc
      unfold Instead at h6
      simp only [Int.toNat_natCast]
      refine ⟨fun k => ?_, fun k k' => ?_, fun k k' => ?_⟩
      · rw [if_pos k] at h6; exact congrArg Prod.snd h6
      · rw [if_neg k, if_pos k'] at h6
        exact h6.imp (congrArg Prod.snd) (congrArg Prod.snd)
      · rw [if_neg k, if_neg k'] at h6; exact congrArg Prod.snd h6

/-- A text of each of the two cases. -/
example : (∃ r, ((({} : Machine).withParsingMode RFC8141Only).withParsingMode 7).parse (lit "urn:uci:x") = .ok r ∧
      r.err = some ⟨.noUrnWithinID, 7⟩) ∧
    (∃ r r', ((({} : Machine).withParsingMode RFC8141Only).withParsingMode 7).parse Cases.s8141 = .ok r ∧
      (({} : Machine).withParsingMode RFC8141Only).parse Cases.s8141 = .ok r' ∧ r.urn = r'.urn) := by
  have hy : ¬ KnownMode 7 := by unfold KnownMode; decide
  constructor
  · obtain ⟨f, h, _⟩ := parse_ref ((({} : Machine).withParsingMode RFC8141Only).withParsingMode 7) (lit "urn:uci:x") (Or.inr (Or.inr (Or.inr rfl)))
    obtain ⟨f', h', _⟩ := parse_ref (({} : Machine).withParsingMode RFC8141Only) (lit "urn:uci:x") (Or.inr (Or.inr (Or.inr rfl)))
    exact ⟨_, h, ((C45_8141_outcome _ 7 hy _ _ _ h h').1
      ⟨⟨lit "urn", lit "uci:x", by decide, by unfold IsUrn; decide⟩, by decide, by decide⟩).2⟩
  · obtain ⟨f, h, _⟩ := parse_ref ((({} : Machine).withParsingMode RFC8141Only).withParsingMode 7) Cases.s8141 (Or.inr (Or.inr (Or.inr rfl)))
    obtain ⟨f', h', _⟩ := parse_ref (({} : Machine).withParsingMode RFC8141Only) Cases.s8141 (Or.inr (Or.inr (Or.inr rfl)))
    exact ⟨_, _, h, h', ((C45_8141_outcome _ 7 hy _ _ _ h h').2 (fun k => absurd k.2.2 (by decide))).1⟩

/-- A malformed escape in the specific string, in a component and in a fragment. -/
example : ∀ x ∈ [(lit "urn:ab:%x!", some (⟨.specificString8141, 9⟩ : Err)), (lit "urn:ab:c?+%x!", some ⟨.malformedRComp8141, 12⟩),
      (lit "urn:ab:c?=%x!", some ⟨.malformedQComp8141, 12⟩), (lit "urn:ab:c#%x!", none)],
    (∃ r, ((({} : Machine).withParsingMode RFC8141Only).withParsingMode 7).parse x.1 = .ok r ∧ r.err = x.2) ∧
    ∃ r', (({} : Machine).withParsingMode RFC8141Only).parse x.1 = .ok r' ∧ r'.err = some ⟨.hex, x.1.length - 1⟩ := by
  intro x hx
  obtain ⟨f, h, _⟩ := parse_ref ((({} : Machine).withParsingMode RFC8141Only).withParsingMode 7) x.1 (Or.inr (Or.inr (Or.inr rfl)))
  obtain ⟨f', h', _⟩ := parse_ref (({} : Machine).withParsingMode RFC8141Only) x.1 (Or.inr (Or.inr (Or.inr rfl)))
  refine ⟨⟨_, h, ?_⟩, _, h', ?_⟩ <;>
    (simp only [List.mem_cons, List.not_mem_nil, or_false] at hx; rcases hx with rfl | rfl | rfl | rfl <;> rfl)

/-- The package level function in RFC 2141 and RFC 7643 mode: no change at all. -/
theorem C45_same (x y : ParsingMode) (hx : x = RFC2141Only ∨ x = RFC7643Only) (hy : ¬ KnownMode y) (s : Bytes)
    (r r' : ParseResult) (h : parse s [withParsingMode x, withParsingMode y] = .ok r) (h' : parse s [withParsingMode x] = .ok r') : r = r' := by
  have hk : KnownMode x := by rcases hx with h | h <;> simp [KnownMode, h]
  obtain ⟨f, h1, hs⟩ := newMachine_ok [withParsingMode x, withParsingMode y]
  obtain ⟨h2, h3, _⟩ := unknown_cfg x y hk hy f h1
  obtain ⟨f', h4, h5, _⟩ := parse_ref f s hs
  rw [parse_mode] at h'
  simp only [parse, h1, h4, Run.ok_bind, Run.pure_eq] at h
  rw [h2, h3, h5] at h
  rcases hx with rfl | rfl
  · have e : refFrom (startOf RFC2141Only) y s = ref2141 ⟨false, true⟩ s := by rw [← flags_unknown hy]; rfl
    rw [e] at h
    rw [refMode_2141] at h'
    have key : ∀ u fl, fl.chk = true → (ref2141 fl s = (some u, none) ↔ ∃ pre nid nss, Urn2141 s pre nid nss ∧ lookahead s = false ∧ u = urn2141 pre nid nss) := by
      intro u fl hc; rw [ref2141_iff]; simp [hc]
    rcases ref2141_or ⟨false, true⟩ s with ⟨u, e1⟩ | ⟨u, e1⟩
    · have e2 := (key u ⟨true, true⟩ rfl).mpr ((key u ⟨false, true⟩ rfl).mp e1)
      rw [e1] at h; rw [e2] at h'; simp at h h'; rw [← h, ← h']
    · rcases ref2141_or ⟨true, true⟩ s with ⟨v, e2⟩ | ⟨v, e2⟩
      · have := (key v ⟨false, true⟩ rfl).mpr ((key v ⟨true, true⟩ rfl).mp e2)
        rw [e1] at this; simp at this
      · rw [e1] at h; rw [e2] at h'; simp at h h'; rw [← h, ← h']
  · have e : refFrom (startOf RFC7643Only) y s = refScim ⟨false, true⟩ s := by rw [← flags_unknown hy]; rfl
    rw [e] at h
    rw [refMode_7643] at h'
    rcases refScim_or ⟨false, true⟩ s with ⟨u, e1⟩ | ⟨u, e1⟩ <;> rw [e1] at h h' <;> simp at h h' <;> rw [← h, ← h']

example : ∃ r, parse Cases.s2141 [withParsingMode RFC2141Only, withParsingMode 7] = .ok r ∧ r.urn = some Cases.u2141 := by
  obtain ⟨r, h⟩ := C01_parse_returns Cases.s2141 [withParsingMode RFC2141Only, withParsingMode 7]
  obtain ⟨r', h', hu⟩ := Cases.p2141
  exact ⟨r, h, C45_same _ 7 (Or.inl rfl) (by unfold KnownMode; decide) _ r r' h h' ▸ hu⟩

/-- In RFC 8141 mode the inputs with byte 4 in `uU` and a colon at byte 7 are rejected in addition. -/
theorem C45_8141 (y : ParsingMode) (hy : ¬ KnownMode y) (s : Bytes) (u : URN) :
    (∃ r, parse s [withParsingMode RFC8141Only, withParsingMode y] = .ok r ∧ r.urn = some u) ↔
      ParsesTo RFC8141Only s u ∧ ¬ ((s[4]? = some 117 ∨ s[4]? = some 85) ∧ s[7]? = some 58) := by
  rw [← lookahead_iff]
  obtain ⟨f, h1, hs⟩ := newMachine_ok [withParsingMode RFC8141Only, withParsingMode y]
  obtain ⟨h2, h3, _⟩ := unknown_cfg RFC8141Only y (Or.inr (Or.inr rfl)) hy f h1
  obtain ⟨f', h4, h5, _⟩ := parse_ref f s hs
  have e : refFrom (startOf RFC8141Only) y s = ref8141 ⟨false, true⟩ s := by rw [← flags_unknown hy]; rfl
  rw [h2, h3, e] at h4
  have h6 : (∃ r, parse s [withParsingMode RFC8141Only, withParsingMode y] = .ok r ∧ r.urn = some u) ↔
      ref8141 ⟨false, true⟩ s = (some u, none) := by
    simp only [parse, h1, h4, Run.ok_bind, Run.pure_eq]
    generalize ref8141 ⟨false, true⟩ s = x
    obtain ⟨a, b⟩ := x
    cases b <;> simp
  rw [h6, ref8141_iff, parsesTo_8141]
  simp only [Bool.not_eq_true]
  constructor
  · rintro ⟨pre, nid, nss, r, q, f, h, hl, rfl⟩
    exact ⟨⟨pre, nid, nss, r, q, f, h, rfl⟩, by simpa using hl⟩
  · rintro ⟨⟨pre, nid, nss, r, q, f, h, rfl⟩, hl⟩
    exact ⟨pre, nid, nss, r, q, f, h, by simpa using hl, rfl⟩

example : ∃ r, parse Cases.s8141 [withParsingMode RFC8141Only, withParsingMode 7] = .ok r ∧ r.urn = some Cases.u8141 :=
  (C45_8141 7 (by unfold KnownMode; decide) _ _).mpr ⟨Cases.p8141, by decide⟩

/-- Witness: `urn:uci:x` is accepted in RFC 8141 mode, but not after `WithParsingMode(Default)`. -/
theorem C45_refuted : Accepts RFC8141Only (lit "urn:uci:x") ∧
    ∀ r, parse (lit "urn:uci:x") [withParsingMode RFC8141Only, withParsingMode DefaultMode] = .ok r → r.urn = none := by
  refine ⟨⟨urn8141 (lit "urn") (lit "uci") (lit "x") none none none, parsesTo_of (by decide)⟩, ?_⟩
  intro r h
  cases hu : r.urn with
  | none => rfl
  | some u =>
    have := ((C45_8141 DefaultMode (by unfold KnownMode; decide) (lit "urn:uci:x") u).mp ⟨r, h, hu⟩).2
    exact absurd (by decide) this

end Urn
