import Verif.GoShare
/-!
# Goroutines that use machines

C76 of `properties.jsonl`.  A machine is a struct that `Parse` and `WithParsingMode` write to, so goroutines must not share one.  Here it is
shown for the text of the package which calls race and which do not.  An access is to a field of a struct or to bytes of an array.  `cs` says, for each goroutine, the address of its machine, what the
machine is in the model, and the call.
-/
set_option autoImplicit false
namespace Urn.GoLang
open Spec

namespace Cases

/-- Two machines and a slice. -/
def mem2 : Heap := [.obj (machVal (Buf.nil.val 0) (Urn.Cases.m RFC2141Only)), .obj (machVal (Buf.nil.val 0) (Urn.Cases.m RFC8141Only)), .arr (lit "urn:a:%2f")]

theorem mem2_0 : MachineAt mem2 0 (Urn.Cases.m RFC2141Only) := ⟨Urn.Cases.reach _, .nil, 0, rfl⟩
theorem mem2_1 : MachineAt mem2 1 (Urn.Cases.m RFC8141Only) := ⟨Urn.Cases.reach _, .nil, 0, rfl⟩

/-- `Parse` of this slice. -/
def parse2 : MCall := .parse (.part 2 [] [] 9) (lit "urn:a:%2f")

theorem parse2_fits (X : Ext) : parse2.Fits X mem2 := ⟨⟨rfl, by decide, by decide⟩, X.fits_of (by decide)⟩

theorem parse2_lower : ∀ x, ¬ UpperEscape (lit "urn:a:%2f") x := by
  rintro x ⟨c, h1, h2, h3⟩
  match x with
  | 0 | 1 | 2 | 3 | 4 | 5 | 6 | 7 | 8 => cases h1; revert h2 h3; decide
  | x + 9 => cases h1

theorem parse2_accepts : parse2.Accepts (Urn.Cases.m RFC2141Only) := by
  obtain ⟨r, h1, h2, -⟩ := Urn.Cases.parses RFC2141Only (lit "urn:a:%2f")
  refine ⟨r, h1, ?_⟩
  rw [h2]
  decide

end Cases

/-- A goroutine that is alone does what the interpreter does. -/
theorem C76_alone (P : Prog) (X : Ext) (n a : Nat) (h : Heap) :
    (∀ b s, runMethod P X n (.ptr "machine" (some a)) "Parse" [Buf.val b s.length] h = ((MCall.parse b s).run P X n a).run h) ∧
    (∀ x, runMethod P X n (.ptr "machine" (some a)) "WithParsingMode" [.int "ParsingMode" x] h = ((MCall.withParsingMode x).run P X n a).run h) ∧
    runMethod P X n (.ptr "machine" (some a)) "Error" [] h = (MCall.error.run P X n a).run h ∧
    ∀ xs ops, client P X n xs ops h = (clientT P X n xs ops).run h :=
  ⟨fun _ _ => runMethod_same P X n _ _ _ h, fun _ => runMethod_same P X n _ _ _ h, runMethod_same P X n _ _ _ h, fun xs ops => client_same P n xs ops h⟩

/-- No machine is used by two goroutines whose calls mix (so, if two use a machine, one of them calls `Error` and the other does not call
`Parse`), and no byte that one call writes to is in the slice of another.  Then there is no race, each goroutine gets what the model says, its
slice is as before, and its machine is as in the model, if all others that use it call `Error`. -/
theorem C76_free {P : Prog} (hP : IsProgram files P) (X : Ext) (h : Heap) (cs : List (Nat × Machine × MCall))
    (hm : ∀ c ∈ cs, MachineAt h c.1 c.2.1 ∧ c.2.2.Fits X h)
    (h1 : ∀ (i j : Nat) c d, i ≠ j → cs[i]? = some c → cs[j]? = some d → c.1 = d.1 → ¬ c.2.2.Mixes d.2.2)
    (h2 : ∀ (i j : Nat) c d k, i ≠ j → cs[i]? = some c → cs[j]? = some d → c.2.2.WritesAt c.2.1 k → ¬ c.2.2.Shares k d.2.2) :
    ∃ N, ∀ n, N ≤ n → Always h (cs.map fun c => c.2.2.run P X n c.1) fun i y =>
      ∃ c m' out vs l, cs[i]? = some c ∧ c.2.1.exec c.2.2.op = .ok (m', out) ∧ y = .ok (vs, l) ∧ OutIs l out vs ∧ c.2.2.Keeps l ∧
        ((∀ (j : Nat) d, j ≠ i → cs[j]? = some d → d.1 = c.1 → d.2.2 = .error) → MachineAt l c.1 m') := by
  cases program_eq hP
  exact call_always cs hm h1 h2

/-- Goroutines ask a machine for its error, and another one sets its mode. -/
example {P : Prog} (hP : IsProgram files P) (X : Ext) : ∃ N, ∀ n, N ≤ n →
    Always Cases.mem2 [MCall.error.run P X n 0, MCall.error.run P X n 0, (MCall.withParsingMode RFC7643Only).run P X n 0] fun i y =>
      ∃ vs l, y = .ok (vs, l) ∧ (i = 2 → MachineAt l 0 ((Cases.m RFC2141Only).withParsingMode RFC7643Only)) := by
  obtain ⟨N, hN⟩ := C76_free hP X Cases.mem2 [(0, Cases.m RFC2141Only, .error), (0, Cases.m RFC2141Only, .error), (0, Cases.m RFC2141Only, .withParsingMode RFC7643Only)]
    (by
      intro c hc
      simp only [List.mem_cons, List.not_mem_nil, or_false] at hc
      rcases hc with rfl | rfl | rfl <;> exact ⟨Cases.mem2_0, trivial⟩)
    (by
      intro i j c d hij hi hj _
      match i, j, hij, hi, hj with
      | 0, 1, _, hi, hj | 1, 0, _, hi, hj | 0, 2, _, hi, hj | 1, 2, _, hi, hj | 2, 0, _, hi, hj | 2, 1, _, hi, hj => cases hi; cases hj; exact id
      | 0, 0, hij, _, _ | 1, 1, hij, _, _ | 2, 2, hij, _, _ => exact absurd rfl hij
      | i + 3, _, _, hi, _ => cases hi
      | _, j + 3, _, _, hj => cases hj)
    (by
      intro i j c d k hij hi hj hw
      have hc := List.mem_of_getElem? hi
      simp only [List.mem_cons, List.not_mem_nil, or_false] at hc
      rcases hc with rfl | rfl | rfl <;> exact hw.elim)
  refine ⟨N, fun n hn => (hN n hn).mono ?_⟩
  rintro i y ⟨c, m', out, vs, l, hi, h1, rfl, h2, h3, h4⟩
  refine ⟨vs, l, rfl, ?_⟩
  rintro rfl
  cases hi
  cases h1
  refine h4 fun j d hj hd _ => ?_
  match j, hj, hd with
  | 0, _, hd | 1, _, hd => cases hd; rfl
  | 2, hj, _ => exact absurd rfl hj
  | j + 3, _, hd => cases hd

/-- The second condition holds if there are no upper case letters in the percent escapes of the texts. -/
theorem C76_lower {P : Prog} (hP : IsProgram files P) (X : Ext) (h : Heap) (cs : List (Nat × Machine × MCall))
    (hm : ∀ c ∈ cs, MachineAt h c.1 c.2.1 ∧ c.2.2.Fits X h)
    (h1 : ∀ (i j : Nat) c d, i ≠ j → cs[i]? = some c → cs[j]? = some d → c.1 = d.1 → ¬ c.2.2.Mixes d.2.2)
    (h2 : ∀ c ∈ cs, ∀ b s x, c.2.2 = .parse b s → ¬ UpperEscape s x) :
    ∃ N, ∀ n, N ≤ n → Always h (cs.map fun c => c.2.2.run P X n c.1) fun i y =>
      ∃ c m' out vs l, cs[i]? = some c ∧ c.2.1.exec c.2.2.op = .ok (m', out) ∧ y = .ok (vs, l) ∧ OutIs l out vs ∧ c.2.2.Keeps l ∧
        ((∀ (j : Nat) d, j ≠ i → cs[j]? = some d → d.1 = c.1 → d.2.2 = .error) → MachineAt l c.1 m') := by
  refine C76_free hP X h cs hm h1 fun i j c d k hij hi hj hw _ => ?_
  have hc := List.mem_of_getElem? hi
  cases e : c.2.2 with
  | parse b s =>
      rw [e] at hw
      exact h2 c hc b s k e (call_upper (hm c hc).1.1 hw)
  | withParsingMode x => rw [e] at hw; exact hw
  | error => rw [e] at hw; exact hw

/-- Two machines parse the same slice. -/
example {P : Prog} (hP : IsProgram files P) (X : Ext) : ∃ N, ∀ n, N ≤ n →
    Always Cases.mem2 [Cases.parse2.run P X n 0, Cases.parse2.run P X n 1] fun _ y => ∃ p e l, y = .ok ([.ptr "URN" p, errVal e], l) ∧
      l.at 2 (.bytes 0 9) = some (.arr (lit "urn:a:%2f")) := by
  obtain ⟨N, hN⟩ := C76_lower hP X Cases.mem2 [(0, Cases.m RFC2141Only, Cases.parse2), (1, Cases.m RFC8141Only, Cases.parse2)]
    (by
      intro c hc
      simp only [List.mem_cons, List.not_mem_nil, or_false] at hc
      rcases hc with rfl | rfl
      · exact ⟨Cases.mem2_0, Cases.parse2_fits X⟩
      · exact ⟨Cases.mem2_1, Cases.parse2_fits X⟩)
    (by
      intro i j c d hij hi hj ha
      match i, j, hij, hi, hj with
      | 0, 1, _, hi, hj => cases hi; cases hj; cases ha
      | 1, 0, _, hi, hj => cases hi; cases hj; cases ha
      | i + 2, _, _, hi, _ => cases hi
      | _, j + 2, _, _, hj => cases hj)
    (by
      intro c hc b s x e
      simp only [List.mem_cons, List.not_mem_nil, or_false] at hc
      rcases hc with rfl | rfl <;> cases e <;> exact Cases.parse2_lower x)
  refine ⟨N, fun n hn => (hN n hn).mono ?_⟩
  rintro i y ⟨c, m', out, vs, l, hi, h1, rfl, h2, h3, h4⟩
  have hc := List.mem_of_getElem? hi
  simp only [List.mem_cons, List.not_mem_nil, or_false] at hc
  have : ∃ u e, out = .parsed u e ∧ c.2.2 = Cases.parse2 := by
    rcases hc with rfl | rfl
    all_goals
      simp only [Cases.parse2, MCall.op, Machine.exec] at h1
      obtain ⟨r, hr, -, -⟩ := Cases.parses (_ : ParsingMode) (lit "urn:a:%2f")
      rw [hr, Run.ok_bind] at h1
      cases h1
      exact ⟨_, _, rfl, rfl⟩
  obtain ⟨u, e, rfl, e2⟩ := this
  rw [e2] at h3
  obtain ⟨p, rfl, -⟩ := h2
  exact ⟨p, e, l, rfl, h3⟩

/-- The calls of two goroutines on the same machine mix.  Then there is a race: if both parse, also the same text; if one parses and the other one
asks for the last error, or sets a mode that the package has; and if both set the mode. -/
theorem C76_machine {P : Prog} (hP : IsProgram files P) (X : Ext) (h : Heap) (cs : List (Nat × Machine × MCall))
    (hm : ∀ c ∈ cs, MachineAt h c.1 c.2.1) (i j : Nat) (c d : Nat × Machine × MCall) (hij : i ≠ j) (hi : cs[i]? = some c) (hj : cs[j]? = some d)
    (ha : c.1 = d.1) (hc : c.2.2.Known) (hd : d.2.2.Known) (hx : c.2.2.Mixes d.2.2) : ∃ N, ∀ n, N ≤ n → Races h (cs.map fun c => c.2.2.run P X n c.1) := by
  cases program_eq hP
  have h1 := hm c (List.mem_of_getElem? hi)
  have h2 := hm d (List.mem_of_getElem? hj)
  rw [← ha] at h2
  refine ⟨1, fun n hn => ?_⟩
  obtain ⟨k, rfl⟩ : ∃ k, n = k + 1 := ⟨n - 1, by omega⟩
  obtain ⟨x, y, hx, hy, e, hxy⟩ := call_mixes (X := X) (n := k) h1 h2 hc hd hx
  refine races (i := i) (j := j) hij (by rw [List.getElem?_map, hi]; rfl) (by rw [List.getElem?_map, hj]; rfl) hx (ha ▸ hy) ?_ hxy
  rw [e]
  obtain ⟨-, b0, n0, q⟩ := h1
  exact (List.getElem?_eq_some_iff.1 q).1

/-- One goroutine parses and another one asks for the error. -/
example {P : Prog} (hP : IsProgram files P) (X : Ext) : ∃ n, Races Cases.mem2 [Cases.parse2.run P X n 0, MCall.error.run P X n 0] := by
  obtain ⟨N, hN⟩ := C76_machine hP X Cases.mem2 [(0, Cases.m RFC2141Only, Cases.parse2), (0, Cases.m RFC2141Only, .error)]
    (by
      intro c hc
      simp only [List.mem_cons, List.not_mem_nil, or_false] at hc
      rcases hc with rfl | rfl <;> exact Cases.mem2_0) 0 1 _ _ (by decide) rfl rfl rfl trivial trivial trivial
  exact ⟨N, hN N (Nat.le_refl _)⟩

/-- If the texts are accepted by the machines, and the package has the modes that are set, this is exact: there is a race exactly if the calls of
two goroutines on the same machine mix, or a byte that one of them writes to is in the slice of another. -/
theorem C76_races {P : Prog} (hP : IsProgram files P) (X : Ext) (h : Heap) (cs : List (Nat × Machine × MCall))
    (hm : ∀ c ∈ cs, MachineAt h c.1 c.2.1 ∧ c.2.2.Fits X h) (hu : ∀ c ∈ cs, c.2.2.Accepts c.2.1 ∧ c.2.2.Known) :
    ∃ N, ∀ n, N ≤ n → (Races h (cs.map fun c => c.2.2.run P X n c.1) ↔
      ∃ (i j : Nat) (c d : Nat × Machine × MCall), i ≠ j ∧ cs[i]? = some c ∧ cs[j]? = some d ∧
        (c.1 = d.1 ∧ c.2.2.Mixes d.2.2 ∨ ∃ k, c.2.2.WritesAt c.2.1 k ∧ c.2.2.Shares k d.2.2)) := by
  by_cases hex : ∃ (i j : Nat) (c d : Nat × Machine × MCall), i ≠ j ∧ cs[i]? = some c ∧ cs[j]? = some d ∧
        (c.1 = d.1 ∧ c.2.2.Mixes d.2.2 ∨ ∃ k, c.2.2.WritesAt c.2.1 k ∧ c.2.2.Shares k d.2.2)
  · have := hex
    obtain ⟨i, j, c, d, hij, hi, hj, ho⟩ := this
    suffices hs : ∃ N, ∀ n, N ≤ n → Races h (cs.map fun c => c.2.2.run P X n c.1) by
      obtain ⟨N, hN⟩ := hs
      exact ⟨N, fun n hn => ⟨fun _ => hex, fun _ => hN n hn⟩⟩
    rcases ho with ⟨ha, he⟩ | ⟨k, hw, hk⟩
    · exact C76_machine hP X h cs (fun c hc => (hm c hc).1) i j c d hij hi hj ha (hu c (List.mem_of_getElem? hi)).2 (hu d (List.mem_of_getElem? hj)).2 he
    · cases program_eq hP
      have hc := hm c (List.mem_of_getElem? hi)
      have hd := hm d (List.mem_of_getElem? hj)
      obtain ⟨N, hN⟩ := call_accs hc.1 hc.2
      obtain ⟨K, hK⟩ := call_accs hd.1 hd.2
      refine ⟨N + K, fun n hn => ?_⟩
      obtain ⟨-, -, q1, -⟩ := hN n (by omega)
      obtain ⟨-, -, -, q2⟩ := hK n (by omega)
      obtain ⟨x, hx, hxw, hxk⟩ := (q1 k).2 hw
      have q2 := q2 (hu d (List.mem_of_getElem? hj)).1
      have ti : (cs.map fun c => c.2.2.run prog X n c.1)[i]? = some (c.2.2.run prog X n c.1) := by rw [List.getElem?_map, hi]; rfl
      have tj : (cs.map fun c => c.2.2.run prog X n c.1)[j]? = some (d.2.2.run prog X n d.1) := by rw [List.getElem?_map, hj]; rfl
      have h3 : ∃ b s b' s', c.2.2 = .parse b s ∧ d.2.2 = .parse b' s' := by
        revert hk
        cases c.2.2 <;> cases d.2.2 <;> first | exact fun h => h.elim | exact fun _ => ⟨_, _, _, _, rfl, rfl⟩
      obtain ⟨b, s, b', s', e1, e2⟩ := h3
      rw [e1] at hk hxk
      rw [e2] at hk q2
      obtain ⟨l, h1, h2⟩ := Buf.At.meets hxk hk
      obtain ⟨y, hy, hyl⟩ := q2 l h1
      obtain ⟨h3, h4⟩ := h2 y hyl
      have hf : (MCall.parse b s).Fits X h := e1 ▸ hc.2
      exact races hij ti tj hx (by rw [e2]; exact hy) (Buf.At.lt hf.1 hxk) ⟨h3, h4, .inl hxw⟩
  · obtain ⟨N, hN⟩ := C76_free hP X h cs hm
      (fun i j c d hij hi hj ha he => hex ⟨i, j, c, d, hij, hi, hj, .inl ⟨ha, he⟩⟩)
      (fun i j c d k hij hi hj hw hk => hex ⟨i, j, c, d, hij, hi, hj, .inr ⟨k, hw, hk⟩⟩)
    refine ⟨N, fun n hn => ⟨fun ⟨sched, hr⟩ => ?_, fun h => absurd h hex⟩⟩
    rw [(hN n hn).1 sched] at hr
    cases hr

/-- Any number of goroutines that parse with one machine race if there are at least two; those that ask for the error do not. -/
example {P : Prog} (hP : IsProgram files P) (X : Ext) (k : Nat) : ∃ n,
    (Races Cases.mem2 (List.replicate k (Cases.parse2.run P X n 0)) ↔ 2 ≤ k) ∧ ¬ Races Cases.mem2 (List.replicate k (MCall.error.run P X n 0)) := by
  obtain ⟨N, hN⟩ := C76_races hP X Cases.mem2 (List.replicate k (0, Cases.m RFC2141Only, Cases.parse2))
    (fun c hc => by rw [List.eq_of_mem_replicate hc]; exact ⟨Cases.mem2_0, Cases.parse2_fits X⟩)
    (fun c hc => by rw [List.eq_of_mem_replicate hc]; exact ⟨Cases.parse2_accepts, trivial⟩)
  obtain ⟨K, hK⟩ := C76_races hP X Cases.mem2 (List.replicate k (0, Cases.m RFC2141Only, .error))
    (fun c hc => by rw [List.eq_of_mem_replicate hc]; exact ⟨Cases.mem2_0, trivial⟩)
    (fun c hc => by rw [List.eq_of_mem_replicate hc]; exact ⟨trivial, trivial⟩)
  have e1 := hN (N + K) (by omega)
  have e2 := hK (N + K) (by omega)
  rw [List.map_replicate] at e1 e2
  refine ⟨N + K, e1.trans ⟨?_, fun h => ?_⟩, fun h => ?_⟩
  · rintro ⟨i, j, c, d, hij, hi, hj, -⟩
    have hi := (List.getElem?_eq_some_iff.1 hi).1
    have hj := (List.getElem?_eq_some_iff.1 hj).1
    rw [List.length_replicate] at hi hj
    omega
  · refine ⟨0, 1, (0, Cases.m RFC2141Only, Cases.parse2), (0, Cases.m RFC2141Only, Cases.parse2), by decide, by rw [List.getElem?_replicate, if_pos (by omega)], by rw [List.getElem?_replicate, if_pos (by omega)], .inl ⟨rfl, trivial⟩⟩
  · obtain ⟨i, j, c, d, hij, hi, hj, ho⟩ := e2.1 h
    rw [List.eq_of_mem_replicate (List.mem_of_getElem? hi), List.eq_of_mem_replicate (List.mem_of_getElem? hj)] at ho
    rcases ho with ⟨-, ho⟩ | ⟨k, ho, -⟩
    · exact ho
    · exact ho

/-- Goroutines that make machines of their own and call their methods, with slices of their own, never race, and each gets, for all its
calls, what the model says. -/
theorem C76_own {P : Prog} (hP : IsProgram files P) (X : Ext) (h : Heap) (cs : List (List ParsingMode × List Urn.Op)) (hf : ∀ c ∈ cs, ∀ op ∈ c.2, OpFits X op) :
    ∃ N, ∀ n, N ≤ n → Always h (cs.map fun c => clientT P X n c.1 c.2) fun i y =>
      ∃ c m m' outs vs l, cs[i]? = some c ∧ newMachine (c.1.map withParsingMode) = .ok m ∧ m.execAll c.2 = .ok (m', outs) ∧ y = .ok (vs, l) ∧ OutsAre l outs vs :=
  client_always hP cs hf

/-- Two goroutines use machines again and again, on texts with upper case letters in percent escapes. -/
example {P : Prog} (hP : IsProgram files P) (X : Ext) : ∃ N, ∀ n, N ≤ n →
    Always [] [clientT P X n [] [.parse (lit "urn:a:%2F"), .withParsingMode RFC8141Only, .parse (lit "urn:a:%2F"), .error],
      clientT P X n [RFC7643Only] [.parse (lit "urn:a:%2F"), .error]] fun _ y => ∃ vs l, y = .ok (vs, l) := by
  obtain ⟨N, hN⟩ := C76_own hP X [] [([], [.parse (lit "urn:a:%2F"), .withParsingMode RFC8141Only, .parse (lit "urn:a:%2F"), .error]),
      ([RFC7643Only], [.parse (lit "urn:a:%2F"), .error])] (by
    have hf : X.Fits (lit "urn:a:%2F") := X.fits_of (by decide)
    intro c hc op ho
    simp only [List.mem_cons, List.not_mem_nil, or_false] at hc
    rcases hc with rfl | rfl
    · simp only [List.mem_cons, List.not_mem_nil, or_false] at ho
      rcases ho with rfl | rfl | rfl | rfl <;> first | exact hf | trivial
    · simp only [List.mem_cons, List.not_mem_nil, or_false] at ho
      rcases ho with rfl | rfl <;> first | exact hf | trivial)
  refine ⟨N, fun n hn => (hN n hn).mono ?_⟩
  rintro i y ⟨c, m, m', outs, vs, l, -, -, -, rfl, -⟩
  exact ⟨vs, l, rfl⟩

end Urn.GoLang
