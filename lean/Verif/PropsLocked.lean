import Verif.Locked
import Verif.PropsParse
/-!
# C62: a machine behind a mutex

If each call on a machine is made while holding one lock, then under every schedule each call returns what it returns in
the sequence of the calls in the order in which they took the lock; no call panics; and all goroutines get done.
-/
set_option autoImplicit false
namespace Urn
open Shared

/-! ## A call takes a bounded number of steps -/

/-- A goroutine in a call returns after `n` steps when it is not disturbed. -/
inductive CallEnds : Nat → Machine → Thread → Machine → Out → Prop where
  | done (m : Machine) (out : Out) : CallEnds 0 m (.done out) m out
  | step {n : Nat} {m : Machine} {t : Thread} {m' : Machine} {out : Out} (h1 : ∀ o, t ≠ .done o) (h2 : ∀ p, t ≠ .dead p) :
      CallEnds n (t.step m).1 (t.step m).2 m' out → CallEnds (n + 1) m t m' out

theorem loop_fin : ∀ {n : Nat} {st : St} {m' : Machine} {o' : URN}, run n st = .ok (m', o') →
    ∃ k, k ≤ n + 1 ∧ CallEnds k st.m (.at st.ctl st.o) m' (.parsed (result m' o').1 (result m' o').2) := by
  have hout : ∀ (m : Machine) (o : URN), CallEnds 1 m (.at .out o) m (.parsed (result m o).1 (result m o).2) :=
    fun m o => .step (by simp) (by simp) (.done _ _)
  intro n
  induction n with
  | zero =>
    intro st m' o' h
    rcases st with ⟨ctl, m, o⟩
    cases ctl <;> simp only [run] at h <;> first | cases h; done | skip
    injection h with h; injection h with h1 h2; subst h1; subst h2
    exact ⟨1, Nat.le_refl _, hout m o⟩
  | succ n ih =>
    intro st m' o' h
    rcases st with ⟨ctl, m, o⟩
    by_cases hc : ctl = .out
    · subst hc
      simp only [run] at h
      injection h with h; injection h with h1 h2; subst h1; subst h2
      exact ⟨1, by omega, hout m o⟩
    · cases hs : step ⟨ctl, m, o⟩ with
      | error p => cases ctl <;> first | exact absurd rfl hc | (simp only [run, hs] at h; cases h)
      | ok st' =>
        have h' : run n st' = .ok (m', o') := by
          cases ctl <;> first | exact absurd rfl hc | (simp only [run, hs] at h; exact h)
        have e : (Thread.at ctl o).step m = (st'.m, .at st'.ctl st'.o) := by
          cases ctl <;> first | exact absurd rfl hc | simp only [Thread.step, hs]
        obtain ⟨k, hk, hf⟩ := ih h'
        exact ⟨k + 1, by omega, .step (by simp) (by simp) (by rw [e]; exact hf)⟩

/-- An upper bound on the steps of a call. -/
def cost : Op → Nat
  | .parse s => fuelFor s.length + 2
  | _ => 1

theorem exec_fin {m m' : Machine} {op : Op} {out : Out} (h : m.exec op = .ok (m', out)) :
    ∃ k, k ≤ cost op ∧ CallEnds k m (.ready op) m' out := by
  cases op with
  | parse s =>
    simp only [Machine.exec, Machine.parse] at h
    cases hr : run (fuelFor s.length) (entry (m.init s)) with
    | panic p => rw [hr] at h; cases h
    | diverge => rw [hr] at h; cases h
    | ok r =>
      rcases r with ⟨m1, o1⟩
      rw [hr] at h
      simp only [Run.ok_bind, Run.pure_eq] at h
      injection h with h; injection h with h1 h2; subst h1; subst h2
      obtain ⟨k, hk, hf⟩ := loop_fin hr
      exact ⟨k + 1, by simp only [cost]; omega, .step (by simp) (by simp) hf⟩
  | withParsingMode x =>
    injection h with h; injection h with h1 h2; subst h1; subst h2
    exact ⟨1, Nat.le_refl _, .step (by simp) (by simp) (.done _ _)⟩
  | error =>
    injection h with h; injection h with h1 h2; subst h1; subst h2
    exact ⟨1, Nat.le_refl _, .step (by simp) (by simp) (.done _ _)⟩

/-! ## The invariant -/

/-- A call that has returned: the goroutine, the call, what it returned. -/
structure Call where
  who : Nat
  op : Op
  out : Out

/-- The calls of goroutine `i`. -/
def callsOf (i : Nat) (log : List Call) : List Call := log.filter fun c => c.who == i

/-- The calls in `log` have returned, in this order; they return that when made in a sequence from `m0` on. -/
structure Holds (m0 : Machine) (ps : List (List Op)) (s : Locked) (log : List Call) (m1 : Machine) : Prop where
  seq : m0.execAll (log.map Call.op) = .ok (m1, log.map Call.out)
  len : s.ws.length = ps.length
  who : ∀ c ∈ log, c.who < ps.length
  free : s.holder = none → s.m = m1
  others : ∀ i w, s.ws[i]? = some w → w.outs = (callsOf i log).map Call.out ∧
    (s.holder ≠ some i → w.now = none ∧ ps[i]? = some ((callsOf i log).map Call.op ++ w.todo))
  busy : ∀ i, s.holder = some i → ∃ w op t m2 out n, s.ws[i]? = some w ∧ w.now = some t ∧
    ps[i]? = some ((callsOf i log).map Call.op ++ op :: w.todo) ∧ m1.exec op = .ok (m2, out) ∧ CallEnds n s.m t m2 out

theorem execAll_snoc {m0 m1 m2 : Machine} {ops : List Op} {outs : List Out} {op : Op} {out : Out}
    (h : m0.execAll ops = .ok (m1, outs)) (h2 : m1.exec op = .ok (m2, out)) : m0.execAll (ops ++ [op]) = .ok (m2, outs ++ [out]) := by
  rw [execAll_append, h]
  simp only [Run.ok_bind, Machine.execAll, h2, Run.pure_eq]

/-- Calls that have not been made need this many steps, with the two for the lock. -/
def work (w : Worker) : Nat := (w.todo.map fun op => cost op + 2).sum

def total (ws : List Worker) : Nat := (ws.map work).sum

theorem total_set {ws : List Worker} {i : Nat} {w w' : Worker} (h : ws[i]? = some w) : total (ws.set i w') + work w = total ws + work w' := by
  induction ws generalizing i with
  | nil => simp at h
  | cons v ws ih =>
    cases i with
    | zero =>
      simp at h; subst h
      simp only [total, List.set_cons_zero, List.map_cons, List.sum_cons]; omega
    | succ i =>
      simp at h
      have := ih h
      simp only [total, List.set_cons_succ, List.map_cons, List.sum_cons] at this ⊢; omega

/-- With the number of steps that are left. -/
def Left (m0 : Machine) (ps : List (List Op)) (s : Locked) (n : Nat) (log : List Call) : Prop :=
  ∃ m1, Holds m0 ps s log m1 ∧ Start m1.startParsingAt ∧
    ((s.holder = none ∧ total s.ws = n) ∨
      ∃ i w t m2 out k, s.holder = some i ∧ s.ws[i]? = some w ∧ w.now = some t ∧ CallEnds k s.m t m2 out ∧ total s.ws + k + 1 = n)

/-- Goroutine `i` can do nothing. -/
def Blocked (s : Locked) (i : Nat) : Prop :=
  (∀ w, s.ws[i]? = some w → w.finished) ∨ ∃ j, s.holder = some j ∧ j ≠ i

theorem fin_unique {n n' : Nat} {m m1 m2 : Machine} {t : Thread} {o1 o2 : Out} (h : CallEnds n m t m1 o1) (h' : CallEnds n' m t m2 o2) :
    n = n' ∧ m1 = m2 ∧ o1 = o2 := by
  induction h generalizing n' with
  | done m out =>
    cases h' with
    | done => exact ⟨rfl, rfl, rfl⟩
    | step h1 => exact absurd rfl (h1 _)
  | step h1 h2 h ih =>
    cases h' with
    | done => exact absurd rfl (h1 _)
    | step _ _ h' =>
      obtain ⟨a, b⟩ := ih h'
      exact ⟨by omega, b⟩

theorem step_left {m0 : Machine} {ps : List (List Op)} {s : Locked} {n : Nat} {log : List Call} (h : Left m0 ps s n log) (i : Nat) :
    (s.step i = s ∧ Blocked s i) ∨ ∃ n' extra, n' < n ∧ Left m0 ps (s.step i) n' (log ++ extra) := by
  obtain ⟨m1, hh, hst, hn⟩ := h
  cases hw : s.ws[i]? with
  | none =>
    left
    exact ⟨by simp only [Locked.step, hw], Or.inl fun w h => by rw [hw] at h; cases h⟩
  | some w =>
    have hi : i < s.ws.length := (List.getElem?_eq_some_iff.mp hw).1
    by_cases hhold : s.holder = some i
    · -- in a call
      right
      obtain ⟨w', op, t, m2, out, k, hw', hnow, hps, hex, hfin⟩ := hh.busy i hhold
      rw [hw] at hw'; injection hw' with hw'; subst hw'
      have hn' : total s.ws + k + 1 = n := by
        rcases hn with ⟨h0, _⟩ | ⟨i', w', t', m2', out', k', h1, h2, h3, h4, h5⟩
        · rw [hhold] at h0; cases h0
        · rw [hhold] at h1; injection h1 with h1; subst h1
          rw [hw] at h2; injection h2 with h2; subst h2
          rw [hnow] at h3; injection h3 with h3; subst h3
          have := (fin_unique hfin h4).1
          omega
      cases hfin with
      | done m out =>
        have e : s.step i = { s with ws := s.ws.set i { w with now := none, outs := w.outs ++ [out] }, holder := none } := by
          simp only [Locked.step, hw, hnow]
        refine ⟨total s.ws, [⟨i, op, out⟩], by omega, s.m, ⟨?_, ?_, ?_, ?_, ?_, ?_⟩, ?_, Or.inl ⟨by rw [e], ?_⟩⟩
        · rw [List.map_append, List.map_append]
          exact execAll_snoc hh.seq hex
        · rw [e]; simp [hh.len]
        · intro c hc
          rcases List.mem_append.mp hc with hc | hc
          · exact hh.who c hc
          · rw [List.mem_singleton.mp hc, ← hh.len]; exact hi
        · intro _; rw [e]
        · intro b v hv
          rw [e] at hv ⊢
          simp only [List.getElem?_set] at hv
          by_cases hib : i = b
          · subst hib
            simp only [if_true, hi] at hv
            injection hv with hv; subst hv
            have h1 := (hh.others i w hw).1
            refine ⟨by simp [callsOf, h1], fun _ => ⟨rfl, ?_⟩⟩
            rw [hps]; simp [callsOf]
          · simp only [hib, if_false] at hv
            obtain ⟨h1, h2⟩ := hh.others b v hv
            have hne : s.holder ≠ some b := by rw [hhold]; intro h; injection h with h; exact hib h
            obtain ⟨h3, h4⟩ := h2 hne
            have hc : callsOf b (log ++ [⟨i, op, out⟩]) = callsOf b log := by simp [callsOf, hib]
            rw [hc]
            exact ⟨h1, fun _ => ⟨h3, h4⟩⟩
        · intro b hb; rw [e] at hb; cases hb
        · obtain ⟨_, _, hx, hy⟩ := exec_ok hst op
          rw [hex] at hx; injection hx with hx; injection hx with hx _; rw [hx]; exact hy
        · rw [e]
          have := total_set (w' := { w with now := none, outs := w.outs ++ [out] }) hw
          simp only [work] at this
          simp only [] at this ⊢
          omega
      | @step k _ _ _ _ h1 h2 hf =>
        have e : s.step i = { s with m := (t.step s.m).1, ws := s.ws.set i { w with now := some (t.step s.m).2 } } := by
          simp only [Locked.step, hw, hnow]
        refine ⟨total s.ws + k + 1, [], by omega, ?_⟩
        rw [List.append_nil]
        refine ⟨m1, ⟨hh.seq, ?_, hh.who, ?_, ?_, ?_⟩, hst, Or.inr ⟨i, { w with now := some (t.step s.m).2 }, _, m2, out, k, ?_, ?_, rfl, ?_, ?_⟩⟩
        · rw [e]; simp [hh.len]
        · intro hc; rw [e] at hc; rw [hhold] at hc; cases hc
        · intro b v hv
          rw [e] at hv ⊢
          simp only [List.getElem?_set] at hv
          by_cases hib : i = b
          · subst hib
            simp only [if_true, hi] at hv
            injection hv with hv; subst hv
            exact ⟨(hh.others i w hw).1, fun hne => absurd hhold hne⟩
          · simp only [hib, if_false] at hv
            exact hh.others b v hv
        · intro b hb
          rw [e] at hb ⊢
          replace hb : s.holder = some b := hb
          rw [hhold] at hb; injection hb with hb; subst hb
          exact ⟨{ w with now := some (t.step s.m).2 }, op, _, m2, out, k, by simp [hi], rfl, hps, hex, hf⟩
        · rw [e]; exact hhold
        · rw [e]; simp [hi]
        · rw [e]; exact hf
        · rw [e]
          have := total_set (w' := { w with now := some (t.step s.m).2 }) hw
          simp only [work] at this
          simp only [] at this ⊢
          omega
    · obtain ⟨h1, h2⟩ := hh.others i w hw
      obtain ⟨hnow, hps⟩ := h2 hhold
      cases htodo : w.todo with
      | nil =>
        left
        refine ⟨by simp only [Locked.step, hw, hnow, htodo], Or.inl fun w' h => ?_⟩
        rw [hw] at h; injection h with h; subst h; exact ⟨htodo, hnow⟩
      | cons op rest =>
        cases hhol : s.holder with
        | some j =>
          left
          refine ⟨by simp [Locked.step, hw, hnow, htodo, hhol], Or.inr ⟨j, hhol, fun h => hhold (by rw [hhol, h])⟩⟩
        | none =>
          right
          have e : s.step i = { s with ws := s.ws.set i { w with todo := rest, now := some (.ready op) }, holder := some i } := by
            simp only [Locked.step, hw, hnow, htodo, hhol, if_true]
          obtain ⟨m2, out, hex, _⟩ := exec_ok hst op
          obtain ⟨k, hk, hf⟩ := exec_fin hex
          have hsm := hh.free hhol
          have hn' : total s.ws = n := by
            rcases hn with ⟨_, h⟩ | ⟨_, _, _, _, _, _, h, _⟩
            · exact h
            · rw [hhol] at h; cases h
          have htot := total_set (w' := { w with todo := rest, now := some (.ready op) }) hw
          have hwork : work w = cost op + 2 + work { w with todo := rest, now := some (.ready op) } := by
            simp only [work, htodo, List.map_cons, List.sum_cons]
          refine ⟨total (s.step i).ws + k + 1, [], by rw [e]; simp only [] at htot ⊢; omega, ?_⟩
          rw [List.append_nil]
          refine ⟨m1, ⟨hh.seq, ?_, hh.who, ?_, ?_, ?_⟩, hst, Or.inr ⟨i, { w with todo := rest, now := some (.ready op) }, _, m2, out, k, ?_, ?_, rfl, ?_, rfl⟩⟩
          · rw [e]; simp [hh.len]
          · intro hc; rw [e] at hc; cases hc
          · intro b v hv
            rw [e] at hv ⊢
            simp only [List.getElem?_set] at hv
            by_cases hib : i = b
            · subst hib
              simp only [if_true, hi] at hv
              injection hv with hv; subst hv
              exact ⟨h1, fun hne => absurd rfl hne⟩
            · simp only [hib, if_false] at hv
              obtain ⟨h3, h4⟩ := hh.others b v hv
              exact ⟨h3, fun _ => h4 (by rw [hhol]; simp)⟩
          · intro b hb
            rw [e] at hb ⊢
            replace hb : some i = some b := hb
            injection hb with hb; subst hb
            refine ⟨{ w with todo := rest, now := some (.ready op) }, op, _, m2, out, k, by simp [hi], rfl, ?_, hex, ?_⟩
            · rw [hps, htodo]
            · show CallEnds k s.m _ m2 out
              rw [hsm]; exact hf
          · rw [e]
          · rw [e]; simp [hi]
          · rw [e]
            show CallEnds k s.m _ m2 out
            rw [hsm]; exact hf

theorem run_left {m0 : Machine} {ps : List (List Op)} : ∀ (r : List Nat) {s : Locked} {n : Nat} {log : List Call},
    Left m0 ps s n log → (s.run r = s ∧ ∀ i ∈ r, Blocked s i) ∨ ∃ n' extra, n' < n ∧ Left m0 ps (s.run r) n' (log ++ extra)
  | [], _, _, _, _ => Or.inl ⟨rfl, by simp⟩
  | i :: r, s, n, log, h => by
    show ((s.step i).run r = s ∧ _) ∨ ∃ n' extra, n' < n ∧ Left m0 ps ((s.step i).run r) n' (log ++ extra)
    rcases step_left h i with ⟨e, hb⟩ | ⟨n', x, hn', h'⟩
    · rw [e]
      rcases run_left r h with ⟨e', hb'⟩ | h'
      · refine Or.inl ⟨e', fun j hj => ?_⟩
        rcases List.mem_cons.mp hj with rfl | hj
        · exact hb
        · exact hb' j hj
      · exact Or.inr h'
    · rcases run_left r h' with ⟨e, _⟩ | ⟨n'', x', hn'', h''⟩
      · rw [e]; exact Or.inr ⟨n', x, hn', h'⟩
      · exact Or.inr ⟨n'', x ++ x', by omega, by rw [← List.append_assoc]; exact h''⟩

theorem left_start {m : Machine} (hm : Reachable m) (ps : List (List Op)) : ∃ n, Left m ps (Locked.start m ps) n [] := by
  refine ⟨total (Locked.start m ps).ws, m, ⟨rfl, by simp [Locked.start], by simp, fun _ => rfl, ?_, ?_⟩, hm.start, Or.inl ⟨rfl, rfl⟩⟩
  · intro i w hw
    simp only [Locked.start, List.getElem?_map, Option.map_eq_some_iff] at hw
    obtain ⟨p, hp, rfl⟩ := hw
    exact ⟨rfl, fun _ => ⟨rfl, hp⟩⟩
  · intro i h; cases h

theorem left_run {m : Machine} {ps : List (List Op)} (sched : List Nat) {s : Locked} {n : Nat} {log : List Call}
    (h : Left m ps s n log) : ∃ n' extra, n' ≤ n ∧ Left m ps (s.run sched) n' (log ++ extra) := by
  rcases run_left sched h with ⟨e, _⟩ | ⟨n', x, hn, h'⟩
  · rw [e]; exact ⟨n, [], Nat.le_refl _, by rw [List.append_nil]; exact h⟩
  · exact ⟨n', x, by omega, h'⟩

/-- A round in which each goroutine has a turn makes progress. -/
theorem round_left {m : Machine} {ps : List (List Op)} {r : List Nat} {s : Locked} {n : Nat} {log : List Call}
    (h : Left m ps s n log) (hr : ∀ i, i < ps.length → i ∈ r) :
    (s.run r = s ∧ ∀ w ∈ s.ws, w.finished) ∨ ∃ n' log', n' < n ∧ Left m ps (s.run r) n' log' := by
  rcases run_left r h with ⟨e, hb⟩ | ⟨n', x, hn, h'⟩
  · refine Or.inl ⟨e, fun w hw => ?_⟩
    obtain ⟨m1, hh, _, _⟩ := h
    obtain ⟨i, hi⟩ := List.mem_iff_getElem?.mp hw
    have hlt : i < ps.length := by rw [← hh.len]; exact (List.getElem?_eq_some_iff.mp hi).1
    rcases hb i (hr i hlt) with h1 | ⟨j, hj, _⟩
    · exact h1 w hi
    · exfalso
      obtain ⟨w', _, t, _, _, _, hw', hnow, _⟩ := hh.busy j hj
      have hlt' : j < ps.length := by rw [← hh.len]; exact (List.getElem?_eq_some_iff.mp hw').1
      rcases hb j (hr j hlt') with h1 | ⟨j', hj', hne⟩
      · have := (h1 w' hw').2
        rw [hnow] at this; cases this
      · rw [hj] at hj'; injection hj' with hj'; exact hne hj'.symm
  · exact Or.inr ⟨n', _, hn, h'⟩

/-! ## The theorems -/

/-- The calls in `log`, all made by goroutines with the calls `ps`, are the ones that have returned in `s`: they return
this when they are made in this order, one after the other, on `m`; `log` has the first calls of each goroutine, in the order
in which it makes them, all of them when it is done, with what they returned to it.  No goroutine has panicked, and when
none is in a call the machine is in the state that the sequence of the calls leaves it in. -/
structure Explains (m : Machine) (ps : List (List Op)) (s : Locked) (log : List Call) : Prop where
  sequence : ∃ m1, m.execAll (log.map Call.op) = .ok (m1, log.map Call.out) ∧ (s.holder = none → s.m = m1)
  known : ∀ c ∈ log, c.who < ps.length
  count : s.ws.length = ps.length
  worker : ∀ i w, s.ws[i]? = some w →
    w.outs = ((log.filter fun c => c.who == i).map Call.out) ∧ (∀ p, w.now ≠ some (.dead p)) ∧
    ∃ rest, ps[i]? = some ((log.filter fun c => c.who == i).map Call.op ++ rest) ∧ (w.finished → rest = [])

theorem explains_of {m : Machine} {ps : List (List Op)} {s : Locked} {n : Nat} {log : List Call} (h : Left m ps s n log) :
    Explains m ps s log := by
  obtain ⟨m1, hh, _, _⟩ := h
  refine ⟨⟨m1, hh.seq, hh.free⟩, hh.who, hh.len, fun i w hw => ?_⟩
  obtain ⟨h1, h2⟩ := hh.others i w hw
  by_cases hhold : s.holder = some i
  · obtain ⟨w', op, t, m2, out, k, hw', hnow, hps, _, hf⟩ := hh.busy i hhold
    rw [hw] at hw'; injection hw' with hw'; subst hw'
    refine ⟨h1, fun p hp => ?_, op :: w.todo, hps, fun hfin => ?_⟩
    · rw [hnow] at hp; injection hp with hp; subst hp
      cases hf with
      | step _ h => exact h _ rfl
    · have := hfin.2
      rw [hnow] at this; cases this
  · obtain ⟨h3, h4⟩ := h2 hhold
    exact ⟨h1, (fun p hp => by rw [h3] at hp; cases hp), w.todo, h4, fun hfin => hfin.1⟩

/-- **C62.**  Under every schedule of any number of goroutines there is an order of the calls that have returned that explains
what they returned and the state of the machine.  Later on this order is only continued: a call that has returned stays before
all the calls that return later. -/
theorem C62_serial {m : Machine} (hm : Reachable m) (ps : List (List Op)) (sched later : List Nat) :
    ∃ log extra, Explains m ps ((Locked.start m ps).run sched) log ∧
      Explains m ps ((Locked.start m ps).run (sched ++ later)) (log ++ extra) := by
  obtain ⟨n, h⟩ := left_start hm ps
  obtain ⟨n1, log, _, h1⟩ := left_run sched h
  obtain ⟨n2, extra, _, h2⟩ := left_run later h1
  refine ⟨[] ++ log, extra, explains_of h1, ?_⟩
  have e : (Locked.start m ps).run (sched ++ later) = ((Locked.start m ps).run sched).run later := by
    simp [Locked.run, List.foldl_append]
  rw [e]; exact explains_of h2

example (sched : List Nat) : ∃ log, Explains (Cases.m RFC8141Only) [Cases.ops, [.error], Cases.ops]
    ((Locked.start (Cases.m RFC8141Only) [Cases.ops, [.error], Cases.ops]).run sched) log := by
  obtain ⟨log, _, h, _⟩ := C62_serial (Cases.reach RFC8141Only) [Cases.ops, [.error], Cases.ops] sched []
  exact ⟨log, h⟩

/-- **C62.**  Each goroutine makes all its calls: there is a number of rounds after which all are done, whatever each round
looks like, as long as every goroutine has a turn in it. -/
theorem C62_finishes {m : Machine} (hm : Reachable m) (ps : List (List Op)) :
    ∃ N, ∀ rounds : List (List Nat), N ≤ rounds.length → (∀ r ∈ rounds, ∀ i, i < ps.length → i ∈ r) →
      ∀ w ∈ ((Locked.start m ps).run rounds.flatten).ws, w.finished := by
  have stay : ∀ (r : List Nat) (s : Locked), (∀ w ∈ s.ws, w.finished) → s.run r = s := by
    intro r s hfin
    have one : ∀ i, s.step i = s := by
      intro i
      cases hw : s.ws[i]? with
      | none => simp only [Locked.step, hw]
      | some w =>
        obtain ⟨h1, h2⟩ := hfin w (List.mem_of_getElem? hw)
        simp only [Locked.step, hw, h1, h2]
    induction r with
    | nil => rfl
    | cons i r ih => show (s.step i).run r = s; rw [one i]; exact ih
  have key : ∀ (n : Nat) (s : Locked) (log : List Call), Left m ps s n log → ∀ rounds : List (List Nat), n + 1 ≤ rounds.length →
      (∀ r ∈ rounds, ∀ i, i < ps.length → i ∈ r) → ∀ w ∈ (s.run rounds.flatten).ws, w.finished := by
    intro n
    induction n using Nat.strongRecOn with
    | _ n ih =>
      intro s log h rounds hlen hr
      cases rounds with
      | nil => simp at hlen
      | cons r rounds =>
        have e : s.run (r :: rounds).flatten = (s.run r).run rounds.flatten := by
          simp [Locked.run, List.foldl_append]
        rw [e]
        rcases round_left h (hr r (by simp)) with ⟨e', hfin⟩ | ⟨n', log', hn', h'⟩
        · rw [e', stay _ s hfin]; exact hfin
        · refine ih n' hn' _ _ h' rounds ?_ (fun r' hr' => hr r' (by simp [hr']))
          simp only [List.length_cons] at hlen; omega
  obtain ⟨n, h⟩ := left_start hm ps
  exact ⟨n + 1, key n _ _ h⟩

/-- Enough rounds in which each of two goroutines gets a turn. -/
example : ∃ N, ∀ w ∈ ((Locked.start (Cases.m RFC8141Only) [Cases.ops, Cases.ops]).run (List.replicate N [0, 1]).flatten).ws, w.finished := by
  obtain ⟨N, h⟩ := C62_finishes (Cases.reach RFC8141Only) [Cases.ops, Cases.ops]
  refine ⟨N, h _ (by simp) fun r hr i hi => ?_⟩
  rw [List.eq_of_mem_replicate hr]
  have : i = 0 ∨ i = 1 := by simp at hi; omega
  simpa using this

/-- **C62.**  So, when all are done, there is one order of all the calls that explains all that was returned. -/
theorem C62_linearizable {m : Machine} (hm : Reachable m) (ps : List (List Op)) (sched : List Nat)
    (hfin : ∀ w ∈ ((Locked.start m ps).run sched).ws, w.finished) :
    ∃ log : List Call, (∃ m1, m.execAll (log.map Call.op) = .ok (m1, log.map Call.out)) ∧ (∀ c ∈ log, c.who < ps.length) ∧
      ∀ i, i < ps.length → ps[i]? = some ((log.filter fun c => c.who == i).map Call.op) ∧
        ((Locked.start m ps).run sched).ws[i]? = some { todo := [], now := none, outs := (log.filter fun c => c.who == i).map Call.out } := by
  obtain ⟨log, _, ⟨⟨m1, h1, _⟩, hk, hlen, h2⟩, _⟩ := C62_serial hm ps sched []
  refine ⟨log, ⟨m1, h1⟩, hk, fun i hi => ?_⟩
  have hw : ((Locked.start m ps).run sched).ws[i]? = some (((Locked.start m ps).run sched).ws[i]'(by omega)) :=
    List.getElem?_eq_getElem (by omega)
  obtain ⟨a, _, rest, b, c⟩ := h2 i _ hw
  have hf := hfin _ (List.mem_of_getElem? hw)
  have := c hf
  subst this
  refine ⟨by simpa using b, ?_⟩
  rw [hw, ← a, ← hf.1, ← hf.2]

example : ∃ sched, ∃ log : List Call, (∃ m1, (Cases.m RFC8141Only).execAll (log.map Call.op) = .ok (m1, log.map Call.out)) ∧
    (log.filter fun c => c.who == 1).map Call.op = Cases.ops ∧ (Locked.start (Cases.m RFC8141Only) [Cases.ops, Cases.ops]).ws.length = 2 ∧
    ∀ w ∈ ((Locked.start (Cases.m RFC8141Only) [Cases.ops, Cases.ops]).run sched).ws, w.finished := by
  obtain ⟨N, h⟩ := C62_finishes (Cases.reach RFC8141Only) [Cases.ops, Cases.ops]
  have hf := h (List.replicate N [0, 1]) (by simp) fun r hr i hi => by
    rw [List.eq_of_mem_replicate hr]
    have : i = 0 ∨ i = 1 := by simp at hi; omega
    simpa using this
  obtain ⟨log, h1, _, h2⟩ := C62_linearizable (Cases.reach RFC8141Only) _ _ hf
  exact ⟨_, log, h1, by simpa using ((h2 1 (by decide)).1).symm, rfl, hf⟩

/-- Two goroutines; the second one sees the mode that the first one set, as it takes the lock later. -/
example : ∃ m, newMachine [] = .ok m ∧
    (((Locked.start m [[.withParsingMode 2], [.parse (lit "urn:a:b")]]).run
      (List.replicate 60 [0, 1]).flatten).ws.map fun w => (w.todo.length, w.now.isSome, w.outs.map fun o =>
        match o with | .parsed u e => (u.isSome, e.isNone) | _ => (false, true))) = [(0, false, [(false, true)]), (0, false, [(false, false)])] := by
  refine ⟨_, rfl, ?_⟩
  decide +kernel

end Urn
