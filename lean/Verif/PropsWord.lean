import Verif.WordAux
import Verif.Bridge
/-!
# C56: machine integers are enough

`parseBits w` (`Word.lean`) is the parser with an `int` of `w` bits that wraps around, as in Go; `parse` computes with
unbounded integers.  A slice in Go never has more than `2 ^ (w - 1) - 1` elements, because its length is an `int`.
-/
set_option autoImplicit false
namespace Urn

/-- C56 (`Machine.Parse`): with an `int` of `w` bits, `w` at least 4, `Parse` of any slice does exactly what it does with
unbounded integers, on any machine: same result, same error, same machine afterwards. -/
theorem C56_machine {m : Machine} (hm : Reachable m) {w : Nat} (hw : 4 ≤ w) {s : Bytes} (hs : s.length < 2 ^ (w - 1)) :
    m.parseBits w s = m.parse s := parseBits_ok hm.start ⟨hw, hs⟩

example : (({} : Machine).withParsingMode RFC8141Only).parseBits 32 (lit "urn:ab:c?+d") = (({} : Machine).withParsingMode RFC8141Only).parse (lit "urn:ab:c?+d") :=
  C56_machine (reachable_new (newMachine_mode RFC8141Only)) (by decide) (by decide)

/-- C56 (sequences of calls): the same for any sequence of calls on one machine. -/
theorem C56_calls {m : Machine} (hm : Reachable m) {w : Nat} (hw : 4 ≤ w) {ops : List Op}
    (hs : ∀ s, .parse s ∈ ops → s.length < 2 ^ (w - 1)) : m.execAllBits w ops = m.execAll ops :=
  execAllBits_ok hm.start fun s h => ⟨hw, hs s (inputs_mem h)⟩

example : (({} : Machine).withParsingMode RFC8141Only).execAllBits 32 [.parse (lit "urn:ab:c?+d"), .error, .parse (lit "urn:")] =
    (({} : Machine).withParsingMode RFC8141Only).execAll [.parse (lit "urn:ab:c?+d"), .error, .parse (lit "urn:")] :=
  C56_calls (reachable_new (newMachine_mode RFC8141Only)) (by decide) (by simp [lit])

/-- C56 (`Parse`): the same for the package function, whatever the options do. -/
theorem C56_parse {w : Nat} (hw : 4 ≤ w) {s : Bytes} (hs : s.length < 2 ^ (w - 1)) {opts : List Opt}
    (ho : ∀ opt ∈ opts, ∀ t, .parse t ∈ opt → t.length < 2 ^ (w - 1)) : parseBits w s opts = parse s opts := by
  have h1 : newMachineBits w opts = newMachine opts := by
    have := execAllBits_ok (w := w) (m := { parsingModeSet := false }) (Or.inl rfl) (ops := opts.flatten) fun t ht => by
      obtain ⟨opt, h1, h2⟩ := List.mem_flatten.mp (inputs_mem ht)
      exact ⟨hw, ho opt h1 t h2⟩
    simp only [newMachineBits, newMachine, this]
  obtain ⟨m, h2, h3⟩ := newMachine_ok opts
  simp only [parseBits, parse, h1, h2, Run.ok_bind, parseBits_ok h3 ⟨hw, hs⟩]
  rfl

/-- The shortest width, with an option that parses. -/
example : parseBits 4 (lit "urn:a:b") [[.parse (lit "urn:a:"), .withParsingMode RFC7643Only]] =
    parse (lit "urn:a:b") [[.parse (lit "urn:a:"), .withParsingMode RFC7643Only]] :=
  C56_parse (by decide) (by decide) (by simp [lit])

/-- C56 for the two sizes of `int` in Go. -/
theorem C56_go {s : Bytes} {opts : List Opt} {w : Nat} (hw : w = 32 ∨ w = 64) (hs : s.length < 2 ^ (w - 1))
    (ho : ∀ opt ∈ opts, ∀ t, .parse t ∈ opt → t.length < 2 ^ (w - 1)) : parseBits w s opts = parse s opts :=
  C56_parse (by omega) hs ho

/-! Beside the theorems: the hypotheses are met, and that on the length is needed. -/

example : parseBits 32 (lit "urn:a:b") [withParsingMode RFC8141Only] = parse (lit "urn:a:b") [withParsingMode RFC8141Only] :=
  C56_go (Or.inl rfl) (by decide) (by simp [withParsingMode])

example : wrap 4 7 = 7 ∧ wrap 4 8 = -8 ∧ wrap 4 (-9) = 7 := by decide

/-- With an `int` of 4 bits, the cursor of a text of 9 bytes wraps around. -/
example : parseBits 4 (lit "urn:a:bcd") = .panic .index := by decide +kernel

/-- With an `int` of 3 bits, even a text of 7 bytes is wrongly read. -/
example : parseBits 3 (lit "urn:a:b") ≠ parse (lit "urn:a:b") := by decide +kernel

end Urn
