import Verif.RunScim
import Verif.Run8141
import Verif.Urn
/-!
# `Parse` computes the reference parser

`parse_ref` combines the three automata; the rest transfers it to `NewMachine`, `Parse` and
histories of operations.
-/
namespace Urn
open Tables Spec

/-- The values that the start state of a machine can have: the three entry points, and 0 for a
machine whose options only selected unknown modes. -/
def Start (n : Nat) : Prop := n = 0 ∨ n = 1 ∨ n = 44 ∨ n = 83

theorem run_of_ends {m0 : Machine} {s : Bytes} {b : Nat} {st : St} {u e} (h : Ends m0 s b st u e) (hb : b ≤ fuelFor s.length) :
    ∃ m o, run (fuelFor s.length) st = .ok (m, o) ∧ m.data = s ∧ m.err = e ∧ result m o = (u, e) ∧
      m.startParsingAt = m0.startParsingAt ∧ m.parsingMode = m0.parsingMode ∧ m.parsingModeSet = m0.parsingModeSet :=
  Ends.mono h hb

/-- One run of `Parse`, on any machine: the loop stops within `2 * length + 10` steps, and the
result is that of the reference parser. -/
theorem run_entry (m : Machine) (s : Bytes) (h : Start m.startParsingAt) :
    Ends m s (2 * s.length + 10) (entry (m.init s)) (refFrom m.startParsingAt m.parsingMode s).1
      (refFrom m.startParsingAt m.parsingMode s).2 := by
  by_cases h0 : m.startParsingAt = 0
  · have e1 : refFrom m.startParsingAt m.parsingMode s = (none, none) := by simp [refFrom, h0]
    rw [e1]
    cases s with
    | nil =>
      have e2 : entry (m.init []) = cfg m [] 0 0 0 {} := by
        simp only [entry, Machine.init, cfg, mk, h0]; rfl
      rw [e2]
      exact Ends.mono (Ends.eofNil (m0 := m) (s := []) (cs := 0) (pb' := 0) (o' := {}) (acts := []) (by rfl) (by decide) exec_nil) (by omega)
    | cons c t =>
      have e2 : entry (m.init (c :: t)) = ⟨.out, mk m (c :: t) 0 0 0 none, {}⟩ := by
        have : (0 : Int) ≠ ((c :: t).length : Nat) := by simp only [List.length_cons]; omega
        simp only [entry, Machine.init, mk, h0, this, if_false, if_true]
      rw [e2]
      exact ⟨mk m (c :: t) 0 0 0 none, {}, by rw [run], rfl, rfl, rfl, rfl, rfl, rfl⟩
  · have e2 : entry (m.init s) = cfg m s m.startParsingAt 0 0 {} := by
      simp only [entry, Machine.init, cfg, mk, h0, if_false]
      by_cases hs : s.length = 0
      · simp only [hs, if_true]; rfl
      · have h1 : (0 : Int) ≠ (s.length : Nat) := by omega
        have h2 : 0 ≠ s.length := by omega
        simp only [h1, h2, if_false]
        rfl
    rw [e2]
    rcases h with h | h | h | h
    · exact absurd h h0
    · have := run2141 (m0 := m) (s := s)
      simpa [Gives, refFrom, h] using this
    · have := runScim (m0 := m) (s := s)
      simpa [Gives, refFrom, h] using this
    · have := run8141 (m0 := m) (s := s)
      simpa [Gives, refFrom, h] using this

/-- `(*machine).Parse` computes the reference parser, restores the buffer, records the error and
keeps the configuration. -/
theorem parse_ref (m : Machine) (s : Bytes) (h : Start m.startParsingAt) :
    ∃ m', m.parse s = .ok ⟨m', (refFrom m.startParsingAt m.parsingMode s).1, (refFrom m.startParsingAt m.parsingMode s).2⟩ ∧
      m'.data = s ∧ m'.err = (refFrom m.startParsingAt m.parsingMode s).2 ∧
      m'.startParsingAt = m.startParsingAt ∧ m'.parsingMode = m.parsingMode ∧
      m'.parsingModeSet = m.parsingModeSet := by
  obtain ⟨m', o, h1, h2, h3, h4, h5, h6, h7⟩ := run_of_ends (run_entry m s h) (by simp [fuelFor]; omega)
  refine ⟨m', ?_, h2, h3, h5, h6, h7⟩
  simp only [Machine.parse, h1, Run.ok_bind, h4, Run.pure_eq]

/-! ## Histories -/

theorem start_withParsingMode {m : Machine} (h : Start m.startParsingAt) (x : ParsingMode) :
    Start (m.withParsingMode x).startParsingAt := by
  simp only [Machine.withParsingMode]
  split
  · exact Or.inr (Or.inl rfl)
  · split
    · exact Or.inr (Or.inr (Or.inr rfl))
    · split
      · exact Or.inr (Or.inr (Or.inl rfl))
      · exact h

/-- Every operation returns normally. -/
theorem exec_ok {m : Machine} (h : Start m.startParsingAt) (op : Op) :
    ∃ m' out, m.exec op = .ok (m', out) ∧ Start m'.startParsingAt := by
  cases op with
  | parse s =>
    obtain ⟨m', h1, _, _, h4, _⟩ := parse_ref m s h
    refine ⟨m', .parsed _ _, by simp only [Machine.exec, h1, Run.ok_bind, Run.pure_eq]; rfl, by rw [h4]; exact h⟩
  | withParsingMode x => exact ⟨_, _, rfl, start_withParsingMode h x⟩
  | error => exact ⟨_, _, rfl, h⟩

theorem execAll_ok {m : Machine} (h : Start m.startParsingAt) (ops : List Op) :
    ∃ m' outs, m.execAll ops = .ok (m', outs) ∧ Start m'.startParsingAt := by
  induction ops generalizing m with
  | nil => exact ⟨m, [], rfl, h⟩
  | cons op ops ih =>
    obtain ⟨m1, o1, h1, h2⟩ := exec_ok h op
    obtain ⟨m2, o2, h3, h4⟩ := ih h2
    exact ⟨m2, o1 :: o2, by simp only [Machine.execAll, h1, h3, Run.ok_bind, Run.pure_eq], h4⟩

theorem newMachine_ok (opts : List Opt) : ∃ m, newMachine opts = .ok m ∧ Start m.startParsingAt := by
  obtain ⟨m, outs, h1, h2⟩ := execAll_ok (m := { parsingModeSet := false }) (Or.inl rfl) opts.flatten
  refine ⟨if m.parsingModeSet then m else m.withParsingMode DefaultParsingMode, ?_, ?_⟩
  · simp only [newMachine, h1, Run.ok_bind, Run.pure_eq]
  · split
    · exact h2
    · exact start_withParsingMode h2 _

/-- The entry point of a known mode. -/
def startOf (mode : ParsingMode) : Nat :=
  if mode = RFC2141Only then 1 else if mode = RFC8141Only then 83 else if mode = RFC7643Only then 44 else 0

/-- A machine freshly made with one mode. -/
theorem newMachine_mode (mode : ParsingMode) :
    newMachine [withParsingMode mode] = .ok { startParsingAt := startOf mode, parsingMode := mode, parsingModeSet := true } := by
  simp only [newMachine, withParsingMode, List.flatten_cons, List.flatten_nil, List.append_nil, Machine.execAll,
    Machine.exec, Run.ok_bind, Run.pure_eq, Machine.withParsingMode, startOf]
  by_cases h1 : mode = RFC2141Only <;> by_cases h2 : mode = RFC8141Only <;> by_cases h3 : mode = RFC7643Only <;>
    simp only [h1, h2, h3, if_true, if_false] <;> rfl

theorem newMachine_default : newMachine [] = newMachine [withParsingMode RFC2141Only] := rfl

/-- The reference parser in a known mode. -/
def refMode (mode : ParsingMode) (s : Bytes) : Res := refFrom (startOf mode) mode s

theorem start_startOf (mode : ParsingMode) : Start (startOf mode) := by
  simp only [startOf, Start]; (repeat' split) <;> simp

/-- The package level `Parse` with one mode. -/
theorem parse_mode (mode : ParsingMode) (s : Bytes) :
    parse s [withParsingMode mode] =
      .ok (match (refMode mode s).2 with
        | some _ => ⟨none, false, s⟩
        | none => ⟨(refMode mode s).1, true, s⟩) := by
  obtain ⟨m', h1, h2, _⟩ := parse_ref { startParsingAt := startOf mode, parsingMode := mode, parsingModeSet := true }
    s (start_startOf mode)
  simp only [parse, newMachine_mode, Run.ok_bind]
  rw [h1]
  simp only [Run.ok_bind, h2, Run.pure_eq]
  unfold refMode
  split <;> rename_i h <;> simp only [h]

theorem parse_default (s : Bytes) : parse s [] = parse s [withParsingMode RFC2141Only] := rfl

theorem refMode_2141 (s : Bytes) : refMode RFC2141Only s = ref2141 ⟨true, true⟩ s := rfl
theorem refMode_7643 (s : Bytes) : refMode RFC7643Only s = refScim ⟨false, true⟩ s := rfl
theorem refMode_8141 (s : Bytes) : refMode RFC8141Only s = ref8141 ⟨true, false⟩ s := rfl

end Urn
