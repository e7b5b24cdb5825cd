import Verif.PropsAux
/-!
# Concrete cases

Results of `Parse` on single inputs.  The examples beside the theorems use them to show that the hypotheses are met.
-/
set_option autoImplicit false
namespace Urn
open Spec

theorem parsesTo_of {mode : ParsingMode} {s : Bytes} {u : URN} (h : refMode mode s = (some u, none)) : ParsesTo mode s u :=
  parsesTo_ref.mpr (res_eq.mpr h)

theorem not_accepts_of {mode : ParsingMode} {s : Bytes} (h : (refMode mode s).1 = none) : ¬ Accepts mode s := by
  rintro ⟨u, hu⟩; rw [parsesTo_ref, h] at hu; simp at hu

theorem rejects_of {mode : ParsingMode} {s : Bytes} {e : Err} (h : refMode mode s = (none, some e)) : RejectsWith mode s e :=
  rejectsWith_ref.mpr ⟨by rw [h], by rw [h]⟩

namespace Cases

theorem k2141 : KnownMode RFC2141Only := Or.inl rfl
theorem k7643 : KnownMode RFC7643Only := Or.inr (Or.inl rfl)
theorem k8141 : KnownMode RFC8141Only := Or.inr (Or.inr rfl)

/-! A URN of each kind; the texts have letters of both cases, an escape, a colon within the last part, all components. -/

def s2141 : Bytes := lit "URN:x-Y:%2Fa:B"
def u2141 : URN := urn2141 (lit "URN") (lit "x-Y") (lit "%2Fa:B")
theorem p2141 : ParsesTo RFC2141Only s2141 u2141 := parsesTo_of (by decide)

def s7643 : Bytes := lit "URN:ietf:params:scim:schemas:core:2.0%3AUser"
def u7643 : URN := urnScim (lit "URN") (lit "schemas") 1 (lit "core") (lit ":2.0%3AUser") (lit "2.0%3AUser")
theorem p7643 : ParsesTo RFC7643Only s7643 u7643 := parsesTo_of (by decide)

def s8141 : Bytes := lit "urn:Ab-1:c/D%4A?+r?=q#f"
def u8141 : URN :=
  urn8141 (lit "urn") (lit "Ab-1") (lit "c/D%4A") (some (lit "r")) (some (lit "q")) (some (lit "f"))
theorem p8141 : ParsesTo RFC8141Only s8141 u8141 := parsesTo_of (by decide)

/-- The first one with other letters in other cases. -/
def t2141 : Bytes := lit "urn:X-y:%2fa:B"
def v2141 : URN := urn2141 (lit "urn") (lit "X-y") (lit "%2fa:B")
theorem q2141 : ParsesTo RFC2141Only t2141 v2141 := parsesTo_of (by decide)

/-- The same texts as words of the grammars. -/
theorem w2141 : Urn2141 s2141 (lit "URN") (lit "x-Y") (lit "%2Fa:B") :=
  ⟨by decide, by unfold IsUrn; decide, ⟨by decide, by decide, by decide, by decide, by unfold IsUrn; decide⟩, by decide,
    .pct (by decide) (by decide) (.char (by decide) (.char (by decide) (.char (by decide) .nil)))⟩

theorem w7643 : UrnScim s7643 (lit "URN") (lit "schemas") 1 (lit "core") (lit ":2.0%3AUser") (lit "2.0%3AUser") :=
  ⟨by decide, by unfold IsUrn; decide, .schemas, ⟨by decide, by decide⟩, .some ⟨by decide,
    .char (by decide) (.char (by decide) (.char (by decide) (.pct (by decide) (by decide)
      (.char (by decide) (.char (by decide) (.char (by decide) (.char (by decide) .nil)))))))⟩⟩

theorem w8141 : Urn8141 s8141 (lit "urn") (lit "Ab-1") (lit "c/D%4A") (some (lit "r")) (some (lit "q")) (some (lit "f")) where
  eq := by decide
  hpre := by unfold IsUrn; decide
  hnid := ⟨by decide, by decide, by decide, by decide, by decide, by
    rintro ⟨p, x, t, e, hp, _⟩
    obtain ⟨a, b, c, rfl, _⟩ := isUrn_iff.mp hp
    simp [lit] at e⟩
  hnss := .char (by decide) (.char (by decide) (.char (by decide) (.pct (by decide) (by decide) .nil)))
  hr := by
    rintro w ⟨⟩
    refine ⟨.char (by decide) .nil, ?_, ?_⟩ <;>
      (intro a b e; have := congrArg List.length e; simp [lit] at this; omega)
  hq := by
    rintro w ⟨⟩
    refine ⟨.char (by decide) .nil, ?_⟩
    intro a b e; have := congrArg List.length e; simp [lit] at this; omega
  hf := by rintro w ⟨⟩; exact .char (by decide) .nil

/-- The machine that `NewMachine(WithParsingMode(mode))` makes. -/
def m (mode : ParsingMode) : Machine := { startParsingAt := startOf mode, parsingMode := mode, parsingModeSet := true }

theorem new (mode : ParsingMode) : newMachine [withParsingMode mode] = .ok (m mode) := newMachine_mode mode

theorem reach (mode : ParsingMode) : Reachable (m mode) := reachable_new (new mode)

/-- What `(Machine).Parse` returns. -/
theorem parses (mode : ParsingMode) (s : Bytes) :
    ∃ r, (m mode).parse s = .ok r ∧ r.urn = (refMode mode s).1 ∧ r.err = (refMode mode s).2 := by
  obtain ⟨m', h, _⟩ := parse_ref (m mode) s (start_startOf mode)
  exact ⟨_, h, rfl, rfl⟩

/-- Any calls on a machine return. -/
theorem execs {m : Machine} (h : Reachable m) (ops : List Op) : ∃ m' outs, m.execAll ops = .ok (m', outs) ∧ Reachable m' := by
  obtain ⟨m', outs, h', _⟩ := execAll_ok h.start ops
  exact ⟨m', outs, h', h.execAll h'⟩

theorem returns {m : Machine} (h : Reachable m) (s : Bytes) : ∃ r, m.parse s = .ok r := by
  obtain ⟨m', h', _⟩ := parse_ref m s h.start
  exact ⟨_, h'⟩

/-- Calls in which one machine accepts, rejects, and is asked for its error. -/
def ops : List Op := [.parse s8141, .parse (lit "urn:ab"), .error]

end Cases
end Urn
