import Verif.PropsCost
import Verif.PropsText
/-!
# More about C72: jumps

In the text of the package, a loop is a `goto` of the generated code or a `for` over values that there are already.  The bound of the interpreter (`callN` of `GoSem.lean`)
is one on the depth of calls and on the number of jumps in a block; if it is too small, there is no result.
-/
set_option autoImplicit false
namespace Urn.GoLang

/-- `Parse` of a machine, in every mode and for every slice: a number of jumps that is linear in the length is enough. -/
theorem C72_jumps {P : Prog} (hP : IsProgram files P) (X : Ext) (h : Heap) (a : Nat) (m : Machine) (hm : MachineAt h a m)
    (b : Buf) (s : Bytes) (hb : b.has h s) (hf : X.Fits s) :
    ∃ r, ∀ n, 9 * s.length + 70 ≤ n → runMethod P X n (.ptr "machine" (some a)) "Parse" [b.val s.length] h = .ok r := by
  cases program_eq hP
  obtain ⟨hr, b0, n0, hm⟩ := hm
  obtain ⟨m', hp, -, -⟩ := parse_ref m s hr.start
  obtain ⟨h', ao, e, -⟩ := parse_call (X := X) hm hb (start_lt hr.start) ((parseBits_start hr.start hf).trans hp) (Nat.le_refl _)
  obtain ⟨r, e'⟩ : ∃ r, runMethod prog X (9 * s.length + 70) (.ptr "machine" (some a)) "Parse" [b.val s.length] h = .ok r := by
    refine ⟨_, Eq.trans ?_ e⟩
    simp only [runMethod, method, find_parse, Res.ok_bind]
  refine ⟨r, fun n hn => ?_⟩
  rcases runMethod_mono prog X (.ptr "machine" (some a)) "Parse" [b.val s.length] h _ _ hn with h1 | h1
  · rw [e'] at h1; cases h1
  · rw [← h1, e']

example {P : Prog} (hP : IsProgram files P) (X : Ext) : ∃ h r, runMethod P X 133 (.ptr "machine" (some 1)) "Parse" [Buf.val (.part 0 [] [] 7) 7] h = .ok r := by
  obtain ⟨h, m, hm, hb⟩ := Cases.machineAt hP X
  obtain ⟨r, hr⟩ := C72_jumps hP X h 1 m hm _ _ hb (X.fits_of (by decide))
  exact ⟨h, r, hr 133 (by decide)⟩

/-- The same for the function `Parse` with any options. -/
theorem C72_jumps_parse {P : Prog} (hP : IsProgram files P) (X : Ext) (h : Heap) (b : Buf) (s : Bytes) (hb : b.has h s) (hf : X.Fits s) (xs : List ParsingMode) :
    ∃ r, ∀ n, 9 * s.length + 75 ≤ n → callParse P X n (b.val s.length) xs h = .ok r := by
  cases program_eq hP
  obtain ⟨r, hr⟩ := C01_parse_returns s (xs.map withParsingMode)
  obtain ⟨h', p, e, -⟩ := pkgParse_call (X := X) xs hb hf hr (Nat.le_refl _)
  have hopt : ∀ n, 1 ≤ n → makeOptions prog X n xs h = .ok (xs.map optVal, h) := by
    intro n hn
    clear e hr
    induction xs with
    | nil => rfl
    | cons x xs ih =>
        have h1 : runFn prog X 1 "WithParsingMode" [.int "ParsingMode" x] false h = .ok ([optVal x], h) := by
          simp only [runFn, find_option, Res.some!_some, Res.ok_bind]
          exact option_call
        have h2 : runFn prog X n "WithParsingMode" [.int "ParsingMode" x] false h = .ok ([optVal x], h) := by
          rcases runFn_mono prog X "WithParsingMode" [.int "ParsingMode" x] false h _ _ hn with h3 | h3
          · rw [h1] at h3; cases h3
          · rw [← h3, h1]
        rw [makeOptions, h2]
        show (one [optVal x] >>= fun v => makeOptions prog X n xs h >>= fun y => .ok (v :: y.1, y.2)) = _
        rw [ih]
        rfl
  obtain ⟨r, e'⟩ : ∃ r, runFn prog X (9 * s.length + 75) "Parse" (b.val s.length :: xs.map optVal) false h = .ok r := by
    refine ⟨_, Eq.trans ?_ e⟩
    simp only [runFn, find_pkgParse, Res.some!_some, Res.ok_bind]
  refine ⟨r, fun n hn => ?_⟩
  rw [callParse, hopt n (by omega)]
  show runFn prog X n "Parse" (b.val s.length :: xs.map optVal) false h = _
  rcases runFn_mono prog X "Parse" (b.val s.length :: xs.map optVal) false h _ _ hn with h1 | h1
  · rw [e'] at h1; cases h1
  · rw [← h1, e']

example {P : Prog} (hP : IsProgram files P) (X : Ext) : ∃ r, callParse P X 138 (Buf.val (.part 0 [] [] 7) 7) [RFC8141Only] [.arr (lit "urn:a:B")] = .ok r := by
  obtain ⟨r, hr⟩ := C72_jumps_parse hP X [.arr (lit "urn:a:B")] (.part 0 [] [] 7) (lit "urn:a:B") ⟨rfl, by decide, by decide⟩ (X.fits_of (by decide)) [RFC8141Only]
  exact ⟨r, hr 138 (by decide)⟩

end Urn.GoLang
