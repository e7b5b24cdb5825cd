import Verif.Shared
import Verif.PropsParse
/-!
# C57: one machine must not be used by two goroutines at once

The calls of two goroutines on one machine: when one has returned before the other begins, both return what the sequence
of the calls returns; when they overlap, a call can return a URN that is in neither input, fail although its input is
well-formed, or panic.
-/
set_option autoImplicit false
namespace Urn
open Shared

/-- A goroutine inside of `Parse` that runs alone returns what the loop computes. -/
theorem alone_loop : ∀ {n : Nat} {st : St} {m' : Machine} {o' : URN}, run n st = .ok (m', o') → ∀ (b : Thread) (k : Nat),
    System.run ⟨st.m, .at st.ctl st.o, b⟩ (List.replicate (n + 1 + k) true) =
      ⟨m', .done (.parsed (result m' o').1 (result m' o').2), b⟩ := by
  have hdone : ∀ (m : Machine) (out : Out) (b : Thread) (k : Nat),
      System.run ⟨m, .done out, b⟩ (List.replicate k true) = ⟨m, .done out, b⟩ := by
    intro m out b k
    induction k with
    | zero => rfl
    | succ k ih => exact ih
  have hout : ∀ (m : Machine) (o : URN) (b : Thread) (k : Nat),
      System.run ⟨m, .at .out o, b⟩ (List.replicate (k + 1) true) =
        ⟨m, .done (.parsed (result m o).1 (result m o).2), b⟩ := fun m o b k => hdone _ _ b k
  intro n
  induction n with
  | zero =>
    intro st m' o' h b k
    rcases st with ⟨ctl, m, o⟩
    cases ctl <;> simp only [run] at h <;> first | cases h; done | skip
    injection h with h; injection h with h1 h2; subst h1; subst h2
    rw [show 0 + 1 + k = k + 1 by omega]
    exact hout m o b k
  | succ n ih =>
    intro st m' o' h b k
    rcases st with ⟨ctl, m, o⟩
    by_cases hc : ctl = .out
    · subst hc
      simp only [run] at h
      injection h with h; injection h with h1 h2; subst h1; subst h2
      rw [show n + 1 + 1 + k = (n + 1 + k) + 1 by omega]
      exact hout m o b _
    · cases hs : step ⟨ctl, m, o⟩ with
      | error p => cases ctl <;> first | exact absurd rfl hc | (simp only [run, hs] at h; cases h)
      | ok st' =>
        have h' : run n st' = .ok (m', o') := by
          cases ctl <;> first | exact absurd rfl hc | (simp only [run, hs] at h; exact h)
        have e : (Thread.at ctl o).step m = (st'.m, .at st'.ctl st'.o) := by
          cases ctl <;> first | exact absurd rfl hc | simp only [Thread.step, hs]
        have := ih h' b k
        rw [show n + 1 + 1 + k = (n + 1 + k) + 1 by omega, List.replicate_succ]
        simp only [System.run, List.foldl_cons, System.step, if_true, e] at this ⊢
        exact this

/-- A goroutine that runs alone returns what the call returns. -/
theorem alone {m m' : Machine} {op : Op} {out : Out} (h : m.exec op = .ok (m', out)) :
    ∃ n, ∀ (b : Thread) (k : Nat), System.run ⟨m, .ready op, b⟩ (List.replicate (n + k) true) = ⟨m', .done out, b⟩ := by
  have hdone : ∀ (m : Machine) (out : Out) (b : Thread) (k : Nat),
      System.run ⟨m, .done out, b⟩ (List.replicate k true) = ⟨m, .done out, b⟩ := by
    intro m out b k
    induction k with
    | zero => rfl
    | succ k ih => exact ih
  cases op with
  | parse s =>
    simp only [Machine.exec, Machine.parse] at h
    cases hr : run (fuelFor s.length) (entry (m.init s)) with
    | panic p => rw [hr] at h; cases h
    | diverge => rw [hr] at h; cases h
    | ok r =>
      rcases r with ⟨m1, o1⟩
      rw [hr] at h
      simp only [Run.ok_bind, Run.pure_eq] at h
      injection h with h; injection h with h1 h2; subst h1; subst h2
      refine ⟨fuelFor s.length + 1 + 1, fun b k => ?_⟩
      have := alone_loop hr b k
      rw [show fuelFor s.length + 1 + 1 + k = (fuelFor s.length + 1 + k) + 1 by omega, List.replicate_succ]
      exact this
  | withParsingMode x =>
    injection h with h; injection h with h1 h2; subst h1; subst h2
    refine ⟨1, fun b k => ?_⟩
    rw [show 1 + k = k + 1 by omega]
    exact hdone _ _ b k
  | error =>
    injection h with h; injection h with h1 h2; subst h1; subst h2
    refine ⟨1, fun b k => ?_⟩
    rw [show 1 + k = k + 1 by omega]
    exact hdone _ _ b k

/-- The second goroutine is the first one of the mirrored system. -/
theorem mirror (m : Machine) (a b : Thread) (k : Nat) :
    System.run ⟨m, a, b⟩ (List.replicate k false) =
      (let s := System.run ⟨m, b, a⟩ (List.replicate k true); ⟨s.m, s.b, s.a⟩) := by
  induction k generalizing m b with
  | zero => rfl
  | succ k ih => exact ih _ _

/-- C57 (calls that do not overlap): if the first goroutine's call has returned before the second one's begins, the calls
return what the two calls return one after the other, and the machine is the same afterwards.  `n` and `k` are the steps
the calls need; further steps change nothing. -/
theorem C57_serial {m : Machine} (hm : Reachable m) (x y : Op) :
    ∃ m' o1 o2, m.execAll [x, y] = .ok (m', [o1, o2]) ∧
      ∃ n k, ∀ n' k', n ≤ n' → k ≤ k' →
        System.run ⟨m, .ready x, .ready y⟩ (List.replicate n' true ++ List.replicate k' false) = ⟨m', .done o1, .done o2⟩ := by
  obtain ⟨m1, o1, h1, hs1⟩ := exec_ok hm.start x
  obtain ⟨m2, o2, h2, _⟩ := exec_ok hs1 y
  refine ⟨m2, o1, o2, by simp only [Machine.execAll, h1, h2, Run.ok_bind, Run.pure_eq], ?_⟩
  obtain ⟨n, hn⟩ := alone h1
  obtain ⟨k, hk⟩ := alone h2
  refine ⟨n, k, fun n' k' hn' hk' => ?_⟩
  have e1 := hn (.ready y) (n' - n)
  have e2 := hk (.done o1) (k' - k)
  rw [show n + (n' - n) = n' by omega] at e1
  rw [show k + (k' - k) = k' by omega] at e2
  have e3 : System.run ⟨m, .ready x, .ready y⟩ (List.replicate n' true ++ List.replicate k' false) =
      System.run (System.run ⟨m, .ready x, .ready y⟩ (List.replicate n' true)) (List.replicate k' false) := by
    simp only [System.run, List.foldl_append]
  rw [e3, e1, mirror, e2]

example : ∃ m' o1 o2, (Cases.m RFC8141Only).execAll [.parse Cases.s8141, .error] = .ok (m', [o1, o2]) := by
  obtain ⟨m', o1, o2, h, _⟩ := C57_serial (Cases.reach RFC8141Only) (.parse Cases.s8141) .error
  exact ⟨m', o1, o2, h⟩

/-- `NewMachine(WithParsingMode(mode))` for a known mode. -/
def fresh (mode : ParsingMode) : Machine := ({ parsingModeSet := false } : Machine).withParsingMode mode

theorem fresh_new (mode : ParsingMode) : newMachine [withParsingMode mode] = .ok (fresh mode) := rfl

/-- C57 (refuted for overlapping calls): while one goroutine parses "urn:a:first" another parses "urn:other:second" on the
same machine.  With one schedule the first call returns the URN `urn:a:second`, without an error: a text that nobody
gave to the parser. -/
theorem C57_mixed_refuted :
    ∃ m sched u, newMachine [withParsingMode RFC2141Only] = .ok m ∧
      (System.run ⟨m, .ready (.parse (lit "urn:a:first")), .ready (.parse (lit "urn:other:second"))⟩ sched).a =
        .done (.parsed (some u) none) ∧ u.string = lit "urn:a:second" :=
  ⟨_, List.replicate 12 true ++ List.replicate 20 false ++ List.replicate 60 true,
    { «prefix» := lit "urn", ID := lit "a", SS := lit "second", norm := lit "second", kind := .RFC2141 },
    fresh_new _, by decide +kernel, by decide +kernel⟩

/-- C57 (refuted for overlapping calls): a call whose input is well-formed can fail. -/
theorem C57_fails_refuted :
    ∃ m sched e, newMachine [withParsingMode RFC2141Only] = .ok m ∧
      (System.run ⟨m, .ready (.parse (lit "urn:a:first")), .ready (.parse (lit "urn:other:second"))⟩ sched).a =
        .done (.parsed none (some e)) :=
  ⟨_, List.replicate 10 true ++ List.replicate 19 false ++ List.replicate 60 true, ⟨.identifier, 16⟩,
    fresh_new _, by decide +kernel⟩

/-- C57 (refuted for overlapping calls): a call can panic, here because the other one's input is empty. -/
theorem C57_panic_refuted :
    ∃ m sched, newMachine [withParsingMode RFC2141Only] = .ok m ∧
      (System.run ⟨m, .ready (.parse (lit "urn:a:b")), .ready (.parse [])⟩ sched).a = .dead .index :=
  ⟨_, [true, false, true], fresh_new _, by decide +kernel⟩

/-- C57 (refuted for overlapping calls): the mode is changed to RFC 8141 while `Parse` runs in RFC 2141 mode.  The result is
a URN of kind RFC 2141, which that mode rejects; if `WithParsingMode` came before or after `Parse`, the outcome would be
a URN of kind RFC 8141, or an error. -/
theorem C57_mode_refuted :
    ∃ m sched u, newMachine [withParsingMode RFC2141Only] = .ok m ∧
      (System.run ⟨m, .ready (.parse (lit "urn:uab:c")), .ready (.withParsingMode RFC8141Only)⟩ sched).a =
        .done (.parsed (some u) none) ∧ u.rfc = .RFC2141 ∧ ¬ Accepts RFC2141Only (lit "urn:uab:c") :=
  ⟨_, [true, false] ++ List.replicate 60 true,
    { «prefix» := lit "urn", ID := lit "uab", SS := lit "c", norm := lit "c", kind := .RFC2141 },
    fresh_new _, by decide +kernel, rfl, not_accepts_of (by decide +kernel)⟩

/-! Beside the theorems: without overlap the same calls succeed. -/

example : ∃ m, newMachine [withParsingMode RFC7643Only] = .ok m ∧ Reachable m :=
  ⟨_, newMachine_mode _, reachable_new (newMachine_mode _)⟩

example :
    (match (System.run ⟨fresh RFC2141Only, .ready (.parse (lit "urn:a:first")), .ready (.parse (lit "urn:other:second"))⟩
      (List.replicate 60 true ++ List.replicate 60 false)) with
    | ⟨_, .done (.parsed (some u) none), .done (.parsed (some v) none)⟩ => (u.string, v.string)
    | _ => ([], [])) = (lit "urn:a:first", lit "urn:other:second") := by decide +kernel

end Urn
