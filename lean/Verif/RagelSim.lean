import Verif.RagelCheck
import Verif.RagelCheck2
import Verif.RagelCheck3
import Verif.RagelCheck4
/-!
# The simulation of the generated code by the grammar, step by step
-/
set_option autoImplicit false
namespace Urn.Grammar
open Ragel Tables

/-! ## Pairs of states -/

/-- The pairs of an instantiation. -/
def pairsOf : Inst → List (Nat × List Config)
  | .main => mainPairs
  | .scimOnly => scimOnlyPairs
  | .rfc8141Only => rfc8141OnlyPairs
  | .fail => failPairs

/-- The expression of an instantiation, evaluated. -/
def expOf : Inst → Exp
  | .main => mainExp
  | .scimOnly => scimOnlyExp
  | .rfc8141Only => rfc8141OnlyExp
  | .fail => failExp

theorem exp_eq (i : Inst) : i.exp = expOf i := by
  cases i
  · exact exp_main
  · exact exp_scimOnly
  · exact exp_rfc8141Only
  · exact exp_fail

theorem check_all (i : Inst) : (pairsOf i).all (checkRow (expOf i) (pairsOf i) (decide (i = .fail))) = true := by
  cases i
  · exact check_main
  · exact check_scimOnly
  · show rfc8141OnlyPairs.all (checkRow rfc8141OnlyExp rfc8141OnlyPairs false) = true
    generalize hf : checkRow rfc8141OnlyExp rfc8141OnlyPairs false = f
    have h1 := check_8141_1
    have h2 := check_8141_2
    have h3 := check_8141_3
    have h4 := check_8141_4
    have h5 := check_8141_5
    have h6 := check_8141_6
    have h7 := check_8141_7
    have h8 := check_8141_8
    have h9 := check_8141_9
    have h10 := check_8141_10
    have h11 := check_8141_11
    rw [hf] at h1 h2 h3 h4 h5 h6 h7 h8 h9 h10 h11
    simp only [rfc8141OnlyPairs, List.all_append, h1, h2, h3, h4, h5, h6, h7, h8, h9, h10, h11, Bool.and_self]
  · exact check_fail

/-- A state of the grammar and the number of a state in machine.go belong together. -/
def Pair (i : Inst) (x : Config) (n : Nat) : Prop := x ∈ lookup n (pairsOf i)

theorem mem_of_lookup {x : Config} {n : Nat} : ∀ {l : List (Nat × List Config)}, x ∈ lookup n l → ∃ k, (n, k) ∈ l ∧ x ∈ k
  | [], h => by simp [lookup] at h
  | (m, k) :: l, h => by
      rw [lookup] at h
      cases hb : Nat.beq n m with
      | false =>
        rw [hb] at h
        obtain ⟨k', h1, h2⟩ := mem_of_lookup h
        exact ⟨k', List.mem_cons_of_mem _ h1, h2⟩
      | true =>
        rw [hb] at h
        have : n = m := Nat.eq_of_beq_eq_true hb
        subst this
        exact ⟨k, List.mem_cons_self, h⟩

theorem Pair.check {i : Inst} {x : Config} {n : Nat} (h : Pair i x n) :
    checkState (expOf i) (pairsOf i) (decide (i = .fail)) n x = true := by
  obtain ⟨k, h1, h2⟩ := mem_of_lookup h
  have h3 := List.all_eq_true.mp (check_all i) _ h1
  exact List.all_eq_true.mp h3 _ h2

theorem all_bytes {f : UInt8 → Bool} (h : ((List.range 256).all fun i => f (UInt8.ofNat i)) = true) (c : UInt8) : f c = true := by
  have := List.all_eq_true.mp h c.toNat (by simpa using c.toNat_lt)
  simpa using this

theorem rep_mem' (c : UInt8) : rep c ∈ reps := by
  have h : reps.contains (rep c) = true := all_bytes (f := fun c => reps.contains (rep c)) rep_mem c
  exact List.contains_iff_mem.mp h

theorem rep_exp (i : Inst) (c : UInt8) : ∀ r ∈ classes (expOf i), mem c r = mem (rep c) r := by
  have h : repExp (expOf i) = true := by
    cases i
    · exact rep_main
    · exact rep_scimOnly
    · exact rep_rfc8141Only
    · exact rep_fail
  intro r hr
  have h1 := all_bytes (f := fun c => (classes (expOf i)).all fun r => mem c r == mem (rep c) r) h c
  have h2 := List.all_eq_true.mp h1 r hr
  simpa using h2

theorem rep_tab {n : Nat} (hn : n < 194) (c : UInt8) : tabF n c = tabF n (rep c) := by
  have key : ∀ a k, (List.range' a k).all repRow = true → a ≤ n → n < a + k → repRow n = true := by
    intro a k h h1 h2
    exact List.all_eq_true.mp h n (by simp; omega)
  have h : repRow n = true := by
    by_cases h1 : n < 25
    · exact key 0 25 rep_tab_0 (by omega) (by omega)
    by_cases h1 : n < 50
    · exact key 25 25 rep_tab_25 (by omega) (by omega)
    by_cases h1 : n < 75
    · exact key 50 25 rep_tab_50 (by omega) (by omega)
    by_cases h1 : n < 100
    · exact key 75 25 rep_tab_75 (by omega) (by omega)
    by_cases h1 : n < 125
    · exact key 100 25 rep_tab_100 (by omega) (by omega)
    by_cases h1 : n < 150
    · exact key 125 25 rep_tab_125 (by omega) (by omega)
    by_cases h1 : n < 175
    · exact key 150 25 rep_tab_150 (by omega) (by omega)
    · exact key 175 19 rep_tab_175 (by omega) (by omega)
  have h := all_bytes (f := fun c => Nat.beq (trOfF n c) (trOfF n (rep c))) h c
  simp only [tabF, Nat.eq_of_beq_eq_true h]

/-- What the check says of a pair. -/
structure Good (i : Inst) (x : Config) (n : Nat) : Prop where
  lt : n < 194
  pos : n ≠ 0
  move : ∀ c, match Ragel.move i.exp x c with
    | some (y, acts) => (tab n c).2 = acts ∧ Pair i y (tab n c).1
    | none => tab n c = (0, actsOf .err i.exp x)
  eof : eofTab n = some (Ragel.eofActs i.exp x)
  to : (actsOf .to i.exp x = [] ∧ toStateActions[n]? = some 0) ∨
    (actsOf .to i.exp x = [.informalNidMatch] ∧ toStateActions[n]? = some 33)
  final : final i.exp x = true ↔ firstFinal ≤ n
  fail : i = .fail ↔ n = enFail

theorem Pair.good {i : Inst} {x : Config} {n : Nat} (h : Pair i x n) : Good i x n := by
  have hk := h.check
  simp only [checkState, Bool.and_eq_true] at hk
  obtain ⟨⟨⟨⟨⟨h1, h2⟩, h3⟩, h4⟩, h5⟩, h6⟩ := hk
  have hto : (actsOf .to i.exp x = [] ∧ toStateActions[n]? = some 0) ∨
      (actsOf .to i.exp x = [.informalNidMatch] ∧ toStateActions[n]? = some 33) := by
    rw [exp_eq]
    split at h3
    · exact .inl ⟨by assumption, of_decide_eq_true h3⟩
    · exact .inr ⟨by assumption, of_decide_eq_true h3⟩
    · cases h3
  have hlt : n < 194 := by
    have hl : toStateActions.length = 194 := by decide +kernel
    rcases hto with ⟨_, h⟩ | ⟨_, h⟩
    all_goals
      have := (List.getElem?_eq_some_iff.mp h).1
      omega
  refine ⟨hlt, ?_, ?_, ?_, hto, ?_, ?_⟩
  · intro h0; subst h0; simp at h6
  · intro c
    rw [exp_eq, move_congr (rep_exp i c), tab_eq, rep_tab hlt c, move_eq]
    have := List.all_eq_true.mp h1 (rep c) (rep_mem' c)
    simp only [checkByte] at this
    split at this
    · rename_i y acts hm
      simp only [Bool.and_eq_true, decide_eq_true_eq] at this
      rw [hm]
      exact ⟨this.1, by simpa [Pair] using this.2⟩
    · rename_i hm
      rw [hm]
      exact of_decide_eq_true this
  · rw [exp_eq]; exact of_decide_eq_true h2
  · rw [exp_eq]
    have h4 : Ragel.final (expOf i) x = Nat.ble firstFinal n := by simpa using h4
    rw [h4, Nat.ble_eq]
  · have h5 : decide (i = .fail) = Nat.beq n enFail := by simpa using h5
    constructor
    · intro hi
      rw [decide_eq_true hi] at h5
      exact Nat.eq_of_beq_eq_true h5.symm
    · intro hn
      have : Nat.beq n enFail = true := by rw [hn]; rfl
      rw [this] at h5
      exact of_decide_eq_true h5

/-- The numbers at which the instantiations start (machine.go: `en_main` and so on). -/
def startOf : Inst → Nat
  | .main => enMain
  | .scimOnly => enScimOnly
  | .rfc8141Only => enRfc8141Only
  | .fail => enFail

theorem pair_start (i : Inst) : Pair i [none] (startOf i) := by
  unfold Pair
  cases i <;> decide +kernel

/-- The values of `cs` that belong together. -/
inductive States : State → Nat → Prop where
  | error : States .error 0
  | at {i : Inst} {x : Config} {n : Nat} : Pair i x n → States (.at i x) n

/-! ## Actions -/

/-- A machine with other values of the fields that the grammar does not use. -/
def put (m : Machine) (cs start : Nat) (set : Bool) : Machine :=
  { m with cs := cs, startParsingAt := start, parsingModeSet := set }

/-- The outcome of actions, when the fields that the grammar does not use have other values. -/
def putOut (cs start : Nat) (set : Bool) : Flow × Machine × URN → Flow × Machine × URN
  | (.next, m, o) => (.next, put m cs start set, o)
  | (.again, m, o) => (.again, put m enFail start set, o)

theorem execAct_put (a : Act) (m : Machine) (o : URN) (cs start : Nat) (set : Bool) :
    execAct a (put m cs start set) o = (execAct a m o).map (putOut cs start set) := by
  have hp : (put m cs start set).p = m.p := rfl
  have hpb : (put m cs start set).pb = m.pb := rfl
  have hd : (put m cs start set).data = m.data := rfl
  have he : (put m cs start set).pe = m.pe := rfl
  have hm : (put m cs start set).parsingMode = m.parsingMode := rfl
  cases a
  case setNss =>
    simp only [execAct, Machine.text, hp, hpb, hd, bind, Except.bind]
    cases slice m.data m.pb m.p with
    | error e => rfl
    | ok ss =>
      simp only []
      cases shiftAll m.pb 32 o.tolower m.data with
      | error e => rfl
      | ok d1 =>
        simp only []
        cases slice d1 m.pb m.p with
        | error e => rfl
        | ok nm =>
          simp only []
          cases shiftAll m.pb (-32) o.tolower d1 with
          | error e => rfl
          | ok d2 => rfl
  case throwPreUrnErr =>
    simp only [execAct, raise, hp, hd, he, hm, bind, Except.bind]
    split
    · split
      · cases index m.data (m.p + 3) with
        | error e => rfl
        | ok c => simp only []; split <;> rfl
      · rfl
    · rfl
  case setScimName =>
    simp only [execAct, hp, hd, bind, Except.bind]
    cases o.scim with
    | none => rfl
    | some s => simp only []; cases slice m.data s.pos m.p <;> rfl
  case setScimOther =>
    simp only [execAct, hp, hd, bind, Except.bind]
    cases o.scim with
    | none => rfl
    | some s => simp only []; cases slice m.data s.pos m.p <;> rfl
  all_goals simp only [execAct, raise, Machine.text, hp, hpb, hd, he, hm, bind, Except.bind]
  all_goals first
    | rfl
    | (split <;> rfl)
    | (cases slice m.data m.pb m.p <;> rfl)
    | (cases slice m.data m.pb m.p <;> cases o.scim <;> rfl)

theorem execActs_put (l : List Act) (m : Machine) (o : URN) (cs start : Nat) (set : Bool) :
    execActs l (put m cs start set) o = (execActs l m o).map (putOut cs start set) := by
  induction l generalizing m o with
  | nil => rfl
  | cons a l ih =>
    simp only [execActs, execAct_put, bind, Except.bind]
    cases execAct a m o with
    | error e => rfl
    | ok r =>
      obtain ⟨fl, m', o'⟩ := r
      cases fl
      · exact ih m' o'
      · rfl

/-! ## Steps -/

/-- The running grammar and the running code belong together. -/
structure Together (start : Nat) (set : Bool) (s : Running) (t : St) : Prop where
  ctl : t.ctl = s.ctl
  o : t.o = s.o
  cs : States s.cs t.m.cs
  m : t.m = put s.m t.m.cs start set

/-- The outcomes of two steps. -/
def Both (start : Nat) (set : Bool) : Except Panic Running → Except Panic St → Prop
  | .ok s, .ok t => Together start set s t
  | .error p, .error q => p = q
  | _, _ => False

variable {start : Nat} {set : Bool}

theorem States.fail : States (.start .fail) enFail := .at (pair_start .fail)

/-- The outcomes of actions. -/
def BothActs (start : Nat) (set : Bool) :
    Except Panic (Flow × State × Machine × URN) → Except Panic (Flow × Machine × URN) → Prop
  | .ok (fl, cs, m, o), .ok (fl', m', o') => fl' = fl ∧ o' = o ∧ States cs m'.cs ∧ m' = put m m'.cs start set
  | .error p, .error q => p = q
  | _, _ => False

theorem perform_both {acts : List Act} {cs : State} {m : Machine} {o : URN} {n : Nat} (h : States cs n) :
    BothActs start set (perform acts cs m o) (execActs acts (put m n start set) o) := by
  rw [execActs_put]
  simp only [perform, bind, Except.bind]
  cases execActs acts m o with
  | error e => rfl
  | ok r =>
    obtain ⟨fl, m', o'⟩ := r
    cases fl
    · exact ⟨rfl, rfl, h, rfl⟩
    · exact ⟨rfl, rfl, States.fail, rfl⟩

theorem put_put (m : Machine) (a b s t : Nat) (x y : Bool) : put (put m a s x) b t y = put m b t y := rfl

theorem step_resume {s : Running} {t : St} (h : Together start set s t) (hc : s.ctl = .resume) :
    Both start set s.step (step t) := by
  obtain ⟨ctl, cs, m, o⟩ := s
  obtain ⟨ctl', m', o'⟩ := t
  obtain ⟨h1, h2, h3, h4⟩ := h
  simp only at h1 h2 h3 h4 hc
  have h2 := h2.symm
  subst h1 h2 hc
  generalize hn : m'.cs = n at h3 h4
  subst h4
  simp only [Running.step, step, bind, Except.bind]
  have hd : (put m n start set).data = m.data := rfl
  have hp : (put m n start set).p = m.p := rfl
  have hcs : (put m n start set).cs = n := rfl
  simp only [hd, hp, hcs]
  cases hi : index m.data m.p with
  | error e => rfl
  | ok c =>
    simp only []
    cases h3 with
    | error => exact ⟨rfl, rfl, .error, rfl⟩
    | @«at» i x n hx =>
      have g := hx.good
      have hm := g.move c
      have hout : dispatch n c ≠ .out := dispatch_ne_out g.pos c
      simp only []
      cases hmv : move i.exp x c
      case' none =>
        rw [hmv] at hm
        simp only [] at hm ⊢
        generalize actsOf .err i.exp x = acts at hm ⊢
        have hs : States .error (tab n c).1 := by rw [hm]; exact .error
        have ha : (tab n c).2 = acts := by rw [hm]
        clear hm
        generalize State.error = q at hs ⊢
      case' some r =>
        obtain ⟨y, acts⟩ := r
        rw [hmv] at hm
        simp only [] at hm ⊢
        have hs : States (.at i y) (tab n c).1 := .at hm.2
        have ha : (tab n c).2 = acts := hm.1
        clear hm
        generalize State.at i y = q at hs ⊢
      all_goals
        cases hdis : dispatch n c with
        | out => exact absurd hdis hout
        | tr k =>
          simp only [tab, hdis] at hs ha ⊢
          cases hf : (trRow k).2 with
          | none =>
            rw [hf] at ha
            subst ha
            exact ⟨rfl, rfl, hs, rfl⟩
          | some f =>
            rw [hf] at ha
            simp only at ha
            subst ha
            have hb := perform_both (start := start) (set := set) (acts := fActs f) (m := m) (o := o) hs
            revert hb
            show BothActs start set (perform (fActs f) q m o) (execActs (fActs f) (put m (trRow k).1 start set) o) → 
              Both start set (do let v ← perform (fActs f) q m o; pure ⟨.again, v.2.1, v.2.2.1, v.2.2.2⟩)
                (do let v ← execActs (fActs f) (put m (trRow k).1 start set) o; pure ⟨.again, v.2.1, v.2.2⟩)
            cases perform (fActs f) q m o <;> cases execActs (fActs f) (put m (trRow k).1 start set) o
            · exact fun h => h
            · exact fun h => h.elim
            · exact fun h => h.elim
            · rintro ⟨_, h2, h3, h4⟩
              exact ⟨rfl, h2, h3, h4⟩

theorem step_again {s : Running} {t : St} (h : Together start set s t) (hc : s.ctl = .again) :
    Both start set s.step (step t) := by
  obtain ⟨ctl, cs, m, o⟩ := s
  obtain ⟨ctl', m', o'⟩ := t
  obtain ⟨h1, h2, h3, h4⟩ := h
  simp only at h1 h2 h3 h4 hc
  have h2 := h2.symm
  subst h1 h2 hc
  generalize hn : m'.cs = n at h3 h4
  subst h4
  have hcs : (put m n start set).cs = n := rfl
  simp only [Running.step, step, hcs, bind, Except.bind]
  cases h3 with
  | error => exact ⟨rfl, rfl, .error, rfl⟩
  | @«at» i x n hx =>
    have g := hx.good
    rcases g.to with ⟨ha, ht⟩ | ⟨ha, ht⟩
    · rw [ht]
      simp only [ha, g.pos, if_false]
      have hp : (put m n start set).p = m.p := rfl
      have hpe : (put m n start set).pe = m.pe := rfl
      simp only [perform, execActs, bind, Except.bind, pure, Except.pure, hp, hpe]
      by_cases hq : m.p + 1 ≠ m.pe
      · rw [if_pos hq, if_pos hq]
        exact ⟨rfl, rfl, .at hx, rfl⟩
      · rw [if_neg hq, if_neg hq]
        exact ⟨rfl, rfl, .at hx, rfl⟩
    · rw [ht]
      simp only [ha]
      exact ⟨rfl, rfl, States.fail, rfl⟩

theorem step_eof {s : Running} {t : St} (h : Together start set s t) (hc : s.ctl = .testEof) :
    Both start set s.step (step t) := by
  obtain ⟨ctl, cs, m, o⟩ := s
  obtain ⟨ctl', m', o'⟩ := t
  obtain ⟨h1, h2, h3, h4⟩ := h
  simp only at h1 h2 h3 h4 hc
  have h2 := h2.symm
  subst h1 h2 hc
  generalize hn : m'.cs = n at h3 h4
  subst h4
  have hcs : (put m n start set).cs = n := rfl
  have hp : (put m n start set).p = m.p := rfl
  have hpe : (put m n start set).eof = m.eof := rfl
  simp only [Running.step, step, hcs, hp, hpe, bind, Except.bind]
  by_cases hq : m.p = m.eof
  · rw [if_pos hq, if_pos hq]
    cases h3 with
    | error => exact ⟨rfl, rfl, .error, rfl⟩
    | @«at» i x n hx =>
      have g := hx.good
      have he := g.eof
      simp only [eofTab] at he
      cases hk : eofActions[n]? with
      | none => rw [hk] at he; cases he
      | some k =>
        rw [hk] at he
        have he : Tables.eofActs k = Ragel.eofActs i.exp x := by simpa using he
        simp only []
        rw [he]
        have hb := perform_both (start := start) (set := set) (acts := Ragel.eofActs i.exp x) (m := m) (o := o)
          (States.at hx)
        revert hb
        cases perform (Ragel.eofActs i.exp x) (.at i x) m o <;>
          cases execActs (Ragel.eofActs i.exp x) (put m n start set) o
        · exact fun h => h
        · exact fun h => h.elim
        · exact fun h => h.elim
        · rename_i a b
          obtain ⟨fl, cs', m', o'⟩ := a
          obtain ⟨fl', m'', o''⟩ := b
          rintro ⟨h1, h2, h3, h4⟩
          subst h1
          cases fl'
          · exact ⟨rfl, h2, h3, h4⟩
          · exact ⟨rfl, h2, h3, h4⟩
  · rw [if_neg hq, if_neg hq]
    exact ⟨rfl, rfl, h3, rfl⟩

/-- The outcomes of two runs. -/
def BothRuns (start : Nat) (set : Bool) : Run Running → Run (Machine × URN) → Prop
  | .ok s, .ok (m, o) => o = s.o ∧ States s.cs m.cs ∧ m = put s.m m.cs start set
  | .panic p, .panic q => p = q
  | .diverge, .diverge => True
  | _, _ => False

theorem run_both (n : Nat) : ∀ {s : Running} {t : St}, Together start set s t →
    BothRuns start set (Running.run n s) (run n t) := by
  induction n with
  | zero =>
    intro s t h
    rw [Running.run]
    by_cases hc : s.ctl = .out
    · rw [if_pos hc]
      obtain ⟨ctl, m, o⟩ := t
      have : ctl = .out := by have := h.ctl; simp only at this; rw [this, hc]
      subst this
      exact ⟨h.o, h.cs, h.m⟩
    · rw [if_neg hc]
      obtain ⟨ctl, m, o⟩ := t
      have : ctl = s.ctl := h.ctl
      subst this
      cases hs : s.ctl <;> first | exact absurd hs hc | trivial
  | succ n ih =>
    intro s t h
    rw [Running.run]
    by_cases hc : s.ctl = .out
    · rw [if_pos hc]
      obtain ⟨ctl, m, o⟩ := t
      have : ctl = .out := by have := h.ctl; simp only at this; rw [this, hc]
      subst this
      exact ⟨h.o, h.cs, h.m⟩
    · rw [if_neg hc]
      have hb : Both start set s.step (step t) := by
        cases hs : s.ctl with
        | resume => exact step_resume h hs
        | again => exact step_again h hs
        | testEof => exact step_eof h hs
        | out => exact absurd hs hc
      have hr : run (n + 1) t = match step t with
          | .ok s' => run n s'
          | .error p => .panic p := by
        obtain ⟨ctl, m, o⟩ := t
        have h1 : ctl = s.ctl := h.ctl
        cases ctl
        case out => exact absurd h1.symm hc
        all_goals rfl
      rw [hr]
      revert hb
      cases s.step <;> cases step t
      · exact fun h => h
      · exact fun h => h.elim
      · exact fun h => h.elim
      · exact fun h => ih h

/-- The whole of `Parse`. -/
theorem parse_both (m : Machine) (i : Inst) (hm : m.startParsingAt = startOf i) (input : Bytes) :
    (do let r ← m.parse input; pure (r.urn, r.err, r.m.data)) = Grammar.parse i m.parsingMode input := by
  have hpos : startOf i ≠ 0 := by cases i <;> decide
  let m0 : Machine := { data := input, pe := input.length, eof := input.length, parsingMode := m.parsingMode }
  have ht : Together m.startParsingAt m.parsingModeSet
      ⟨if m0.p = m0.pe then .testEof else .resume, .start i, m0, { tolower := [] }⟩ (entry (m.init input)) := by
    have hi : m.init input = put m0 (startOf i) m.startParsingAt m.parsingModeSet := by
      simp only [Machine.init, hm]
      rfl
    rw [hi]
    have hp : (put m0 (startOf i) m.startParsingAt m.parsingModeSet).p = m0.p := rfl
    have hpe : (put m0 (startOf i) m.startParsingAt m.parsingModeSet).pe = m0.pe := rfl
    have hcs : (put m0 (startOf i) m.startParsingAt m.parsingModeSet).cs = startOf i := rfl
    simp only [entry, hp, hpe, hcs, hpos, if_false]
    by_cases hq : m0.p = m0.pe
    · rw [if_pos hq, if_pos hq]
      exact ⟨rfl, rfl, .at (pair_start i), rfl⟩
    · rw [if_neg hq, if_neg hq]
      exact ⟨rfl, rfl, .at (pair_start i), rfl⟩
  have hr := run_both (fuelFor input.length) ht
  have e1 : (do let r ← m.parse input; pure (r.urn, r.err, r.m.data) : Run (Option URN × Option Err × Bytes)) =
      (do let r ← run (fuelFor input.length) (entry (m.init input))
          pure ((result r.1 r.2).1, (result r.1 r.2).2, r.1.data)) := by
    simp only [Machine.parse]
    cases run (fuelFor input.length) (entry (m.init input)) <;> rfl
  rw [e1]
  show _ = (do
    let r ← Running.run (fuelFor input.length) ⟨if m0.p = m0.pe then .testEof else .resume, .start i, m0, { tolower := [] }⟩
    match r.cs with
    | .at j x => if j ≠ .fail ∧ final j.exp x then pure (some r.o, none, r.m.data) else pure (none, r.m.err, r.m.data)
    | .error => pure (none, r.m.err, r.m.data) : Run (Option URN × Option Err × Bytes))
  revert hr
  cases Running.run (fuelFor input.length) ⟨if m0.p = m0.pe then .testEof else .resume, .start i, m0, { tolower := [] }⟩ <;>
    cases run (fuelFor input.length) (entry (m.init input))
  all_goals first
    | exact fun h => h.elim
    | skip
  · rename_i s r
    obtain ⟨ctl, cs, ms, o⟩ := s
    obtain ⟨mr, o'⟩ := r
    rintro ⟨h1, h2, h3⟩
    simp only at h1 h2 h3
    subst h1
    have hd : mr.data = ms.data := by rw [h3]; rfl
    have he : mr.err = ms.err := by rw [h3]; rfl
    show Run.ok _ = _
    simp only [result, hd, he]
    generalize mr.cs = n at h2
    cases h2 with
    | error => rfl
    | @«at» j x n hx =>
      have g := hx.good
      have hiff : (n < firstFinal ∨ n = enFail) ↔ ¬(j ≠ .fail ∧ final j.exp x = true) := by
        rw [g.final, Ne, g.fail]
        omega
      by_cases hq : j ≠ .fail ∧ final j.exp x = true
      · rw [if_neg (fun h => hiff.mp h hq)]
        show _ = (if _ then _ else _ : Run (Option URN × Option Err × Bytes))
        rw [if_pos hq]
        rfl
      · rw [if_pos (hiff.mpr hq)]
        show _ = (if _ then _ else _ : Run (Option URN × Option Err × Bytes))
        rw [if_neg hq]
        rfl
  · intro h
    cases h
    rfl
  · intro _
    rfl

end Urn.Grammar
