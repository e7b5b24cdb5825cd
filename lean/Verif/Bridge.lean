import Verif.Main
import Verif.Lang2141
import Verif.LangScim
import Verif.Lang8141
import Verif.Obs
/-!
# From the API to the grammars
-/
set_option autoImplicit false
namespace Urn
open Spec

theorem parsesTo_ref {mode : ParsingMode} {s : Bytes} {u : URN} :
    ParsesTo mode s u ↔ (refMode mode s).2 = none ∧ (refMode mode s).1 = some u := by
  simp only [ParsesTo, parse_mode, Run.ok.injEq, exists_eq_left']
  cases h : (refMode mode s).2 <;> simp

theorem res_eq {x : Res} {u : URN} : (x.2 = none ∧ x.1 = some u) ↔ x = (some u, none) := by
  obtain ⟨a, b⟩ := x; simp [and_comm]

/-- RFC 2141 mode: the exact language and results. -/
theorem parsesTo_2141 {s : Bytes} {u : URN} : ParsesTo RFC2141Only s u ↔
    ∃ pre nid nss, Urn2141 s pre nid nss ∧ lookahead s = false ∧ u = urn2141 pre nid nss := by
  rw [parsesTo_ref, res_eq, refMode_2141, ref2141_iff]
  simp

/-- RFC 7643 mode: the exact language and results. -/
theorem parsesTo_7643 {s : Bytes} {u : URN} : ParsesTo RFC7643Only s u ↔
    ∃ pre kw ty name tail other, UrnScim s pre kw ty name tail other ∧ u = urnScim pre kw ty name tail other := by
  rw [parsesTo_ref, res_eq, refMode_7643, refScim_iff]

/-- RFC 8141 mode: the exact language and results. -/
theorem parsesTo_8141 {s : Bytes} {u : URN} : ParsesTo RFC8141Only s u ↔
    ∃ pre nid nss r q f, Urn8141 s pre nid nss r q f ∧ u = urn8141 pre nid nss r q f := by
  rw [parsesTo_ref, res_eq, refMode_8141, ref8141_iff]
  simp

/-- The error of a freshly made machine. -/
theorem rejectsWith_ref {mode : ParsingMode} {s : Bytes} {e : Err} :
    RejectsWith mode s e ↔ (refMode mode s).1 = none ∧ (refMode mode s).2 = some e := by
  obtain ⟨m', h1, h2, _⟩ := parse_ref { startParsingAt := startOf mode, parsingMode := mode, parsingModeSet := true }
    s (start_startOf mode)
  simp only [RejectsWith, newMachine_mode, Run.ok.injEq]
  constructor
  · rintro ⟨m, r, rfl, h3, h4, h5⟩
    rw [h1] at h3
    simp at h3
    subst h3
    exact ⟨h4, h5⟩
  · rintro ⟨h3, h4⟩
    exact ⟨_, _, rfl, h1, h3, h4⟩

theorem parsesTo_unique {mode : ParsingMode} {s : Bytes} {u v : URN} (h : ParsesTo mode s u) (h' : ParsesTo mode s v) : u = v := by
  rw [parsesTo_ref] at h h'
  rw [h.2] at h'; simpa using h'.2

theorem execAll_start {m m' : Machine} {ops : List Op} {outs : List Out} (h : m.execAll ops = .ok (m', outs))
    (hm : Start m.startParsingAt) : Start m'.startParsingAt := by
  obtain ⟨m2, o2, h2, h3⟩ := execAll_ok hm ops
  rw [h] at h2; simp at h2; rw [h2.1]; exact h3

theorem newMachine_start {opts : List Opt} {m : Machine} (h : newMachine opts = .ok m) : Start m.startParsingAt := by
  obtain ⟨m2, h2, h3⟩ := newMachine_ok opts
  rw [h] at h2; simp at h2; rw [h2]; exact h3

theorem Reachable.start {m : Machine} (h : Reachable m) : Start m.startParsingAt := by
  obtain ⟨opts, ops, m0, outs, h1, h2⟩ := h
  exact execAll_start h2 (newMachine_start h1)

theorem reachable_new {opts : List Opt} {m : Machine} (h : newMachine opts = .ok m) : Reachable m :=
  ⟨opts, [], m, [], h, rfl⟩

theorem execAll_append (m : Machine) (a b : List Op) : m.execAll (a ++ b) =
    (m.execAll a >>= fun x => x.1.execAll b >>= fun y => .ok (y.1, x.2 ++ y.2)) := by
  induction a generalizing m with
  | nil =>
    simp only [List.nil_append, Machine.execAll, Run.pure_eq, Run.ok_bind]
    cases m.execAll b <;> rfl
  | cons op a ih =>
    simp only [List.cons_append, Machine.execAll]
    cases m.exec op with
    | ok x =>
      simp only [Run.ok_bind, ih]
      cases x.1.execAll a with
      | ok y =>
        simp only [Run.ok_bind, Run.pure_eq]
        cases y.1.execAll b <;> rfl
      | panic => rfl
      | diverge => rfl
    | panic => rfl
    | diverge => rfl

theorem Reachable.execAll {m m' : Machine} {ops : List Op} {outs : List Out} (h : Reachable m)
    (h' : m.execAll ops = .ok (m', outs)) : Reachable m' := by
  obtain ⟨opts, ops0, m0, outs0, h1, h2⟩ := h
  refine ⟨opts, ops0 ++ ops, m0, outs0 ++ outs, h1, ?_⟩
  rw [execAll_append, h2, Run.ok_bind]
  simp only [h', Run.ok_bind]

end Urn
