import Verif.GoSlice
/-!
# Goroutines that parse slices of the same array

C75 of `properties.jsonl`.  `Parse` gets a slice, reads it, and sometimes writes to it (C03, C39): letters of percent escapes are changed to
lower case and then back.  So goroutines that parse slices of the same array can race.  Here it is shown for the text of the package when
they do, and when they do not.  If the slices have no bytes in common, they do not (`C73_parse`).
-/
set_option autoImplicit false
namespace Urn.GoLang
open Spec

/-! ## When a call writes -/

/-- The text writes to a byte of its slice exactly if the model does, and to nothing else that was there before the call; all its accesses
to memory that was there are to bytes of the slice; and if the text is accepted, it accesses all of them. -/
theorem C75_writes {P : Prog} (hP : IsProgram files P) (X : Ext) (h : Heap) (b : Buf) (s : Bytes) (hb : b.has h s) (hf : X.Fits s) (xs : List ParsingMode) :
    ∃ N, ∀ n, N ≤ n →
      (∀ j, (∃ x ∈ (callParseT P X n (b.val s.length) xs).log h, x.write = true ∧ b.At j x) ↔ WritesAt xs s j) ∧
      (∀ x ∈ (callParseT P X n (b.val s.length) xs).log h, x.cell < h.length → b.Owns s.length x) ∧
      ∀ r, parse s (xs.map withParsingMode) = .ok r → r.urn ≠ none → ∀ j, j < s.length → ∃ x ∈ (callParseT P X n (b.val s.length) xs).log h, b.At j x := by
  obtain ⟨N, hN⟩ := parse_accs hP (xs := xs) hb hf
  exact ⟨N, fun n hn => ⟨(hN n hn).2.1, (hN n hn).1, (hN n hn).2.2⟩⟩

/-- A slice in the middle of an array. -/
example {P : Prog} (hP : IsProgram files P) (X : Ext) := C75_writes hP X [.arr [], .arr (lit "xurn:a:%2Fyz")] (.part 1 (lit "x") (lit "yz") 10) (lit "urn:a:%2F")
  ⟨rfl, by decide, by decide⟩ (X.fits_of (by decide)) [RFC2141Only]

/-- Only upper case letters in percent escapes are written to.  If the text is accepted, these are exactly the ones in the namespace
specific string of the result, which is in the text after `urn`, the namespace identifier and two colons. -/
theorem C75_letters (s : Bytes) :
    (∀ xs j, WritesAt xs s j → UpperEscape s j) ∧
    ∀ mode u, KnownMode mode → ParsesTo mode s u → ∀ j, WritesAt [mode] s j ↔ ∃ x, j = 5 + u.ID.length + x ∧ UpperEscape u.SS x := by
  refine ⟨fun xs j => writesAt_upper, fun mode u hk hu j => ?_⟩
  obtain ⟨m, hm, -⟩ := newMachine_ok [withParsingMode mode]
  obtain ⟨L, -, h1, h2⟩ := C39_writes_accepted mode hk s u hu m hm
  constructor
  · rintro ⟨m', c, hm', hw⟩
    have e : m' = m := by
      have hm' : newMachine [withParsingMode mode] = .ok m' := hm'
      rw [hm] at hm'
      cases hm'
      rfl
    subst e
    rw [h1] at hw
    have hj : j ∈ L := by
      simp only [List.mem_append, List.mem_map, Prod.mk.injEq] at hw
      rcases hw with ⟨i, hi, rfl, -⟩ | ⟨i, hi, rfl, -⟩ <;> exact hi
    obtain ⟨h3, h4⟩ := (h2 j).1 hj
    exact ⟨_, by omega, h4⟩
  · rintro ⟨x, rfl, hx⟩
    refine ⟨m, s.getD (5 + u.ID.length + x) 0, hm, ?_⟩
    rw [h1]
    exact List.mem_append_right _ (List.mem_map.2 ⟨_, (h2 _).2 ⟨by omega, by rwa [Nat.add_sub_cancel_left]⟩, rfl⟩)

/-- `urn:Ab-1:c/D%4A?+r?=q#f` is written to: `A` is a letter of an escape. -/
theorem writes8141 : WritesAt [RFC8141Only] Cases.s8141 14 :=
  ((C75_letters Cases.s8141).2 RFC8141Only Cases.u8141 Cases.k8141 Cases.p8141 14).2 ⟨5, rfl, 65, rfl, rfl, Or.inr ⟨by decide, rfl⟩⟩

theorem lower_lower : ∀ x, ¬ UpperEscape (lit "urn:A:%2f%4a") x := by
  rintro x ⟨c, h1, h2, h3⟩
  match x with
  | 0 | 1 | 2 | 3 | 4 | 5 | 6 | 7 | 8 | 9 | 10 | 11 => cases h1; revert h2 h3; decide
  | x + 12 => cases h1

theorem not_writes (xs : List ParsingMode) : ¬ Writes xs (lit "urn:A:%2f%4a") := fun ⟨j, h⟩ => lower_lower j ((C75_letters _).1 xs j h)

example : WritesAt [RFC8141Only] Cases.s8141 14 ∧ ∀ j, ¬ WritesAt [RFC8141Only] (lit "urn:A:%2f%4a") j := ⟨writes8141, fun j h => not_writes _ ⟨j, h⟩⟩

/-! ## Races -/

/-- Goroutines that parse slices: no byte that one of them writes to is in the slice of another.  Then there is no race, each of them gets
what the model says, and its slice is as before. -/
theorem C75_shared {P : Prog} (hP : IsProgram files P) (X : Ext) (h : Heap) (cs : List (Buf × Bytes × List ParsingMode))
    (hb : ∀ c ∈ cs, c.1.has h c.2.1 ∧ X.Fits c.2.1)
    (hd : ∀ (i j : Nat) c d k, i ≠ j → cs[i]? = some c → cs[j]? = some d → WritesAt c.2.2 c.2.1 k → ¬ d.1.Holds d.2.1.length c.1 k) :
    ∃ N, ∀ n, N ≤ n → Always h (cs.map fun c => callParseT P X n (c.1.val c.2.1.length) c.2.2) fun i y =>
      ∃ c r p l, cs[i]? = some c ∧ parse c.2.1 (c.2.2.map withParsingMode) = .ok r ∧ y = .ok ([.ptr "URN" p, .bool r.ok], l) ∧ UrnPtr l p r.urn ∧
        c.1.Reads l c.2.1 := by
  obtain ⟨N, hN⟩ := parse_always hP X h cs hb
  obtain ⟨K, hK⟩ := bound_all cs _ fun c hc => parse_accs hP (xs := c.2.2) (hb c hc).1 (hb c hc).2
  have key : ∀ n, N + K ≤ n → ∀ (i j : Nat) c d x, i ≠ j → cs[i]? = some c → cs[j]? = some d → x ∈ (callParseT P X n (c.1.val c.2.1.length) c.2.2).log h →
      x.write = true → x.cell < h.length → ¬ d.1.Touches d.2.1.length x := by
    intro n hn i j c d x hij hi hj hx hw hl ht
    obtain ⟨h1, h2, -⟩ := hK n (by omega) c (List.mem_of_getElem? hi)
    obtain ⟨k, h3, h4⟩ := (h1 x hx hl).common ht
    exact hd i j c d k hij hi hj ((h2 k).1 ⟨x, hx, hw, h3⟩) h4
  refine ⟨N + K, fun n hn => ((hN n (by omega)).2 (noConflict_map fun i j c d x y hij hi hj hx hy hl hxy => ?_)).mono ?_⟩
  · have h2 := (hK n (by omega) c (List.mem_of_getElem? hi)).1
    have h4 := (hK n (by omega) d (List.mem_of_getElem? hj)).1
    have hl' : y.cell < h.length := hxy.1 ▸ hl
    rcases hxy.2.2 with e | e
    · exact key n hn i j c d x hij hi hj hx e hl ((h2 x hx hl).conflict (h4 y hy hl') hxy)
    · exact key n hn j i d c y (fun e => hij e.symm) hj hi hy e hl'
        ((h4 y hy hl').conflict (h2 x hx hl) ⟨hxy.1.symm, hxy.2.1.symm, hxy.2.2.symm⟩)
  · rintro i y ⟨c, r, p, l, h1, h2, h3, h4, h5⟩
    exact ⟨c, r, p, l, h1, h2, h3, h4, h5 fun j d x hj hdj hx hw hl => key n hn j i d c x hj hdj h1 hx hw hl⟩

/-- Two goroutines parse the same slice, and a third one, in the same array, a text that is written to. -/
example {P : Prog} (hP : IsProgram files P) (X : Ext) : ∃ N, ∀ n, N ≤ n →
    Always [.arr (lit "urn:A:%2f%4aurn:b:%2F")] [callParseT P X n (.bytes 0 0 12 12) [], callParseT P X n (.bytes 0 0 12 21) [RFC8141Only],
      callParseT P X n (.bytes 0 12 9 9) []] fun _ y => ∃ p ok l, y = .ok ([.ptr "URN" p, .bool ok], l) := by
  obtain ⟨N, hN⟩ := C75_shared hP X [.arr (lit "urn:A:%2f%4aurn:b:%2F")] [(.part 0 [] (lit "urn:b:%2F") 12, lit "urn:A:%2f%4a", []),
      (.part 0 [] (lit "urn:b:%2F") 21, lit "urn:A:%2f%4a", [RFC8141Only]), (.part 0 (lit "urn:A:%2f%4a") [] 9, lit "urn:b:%2F", [])]
    (by
      intro c hc
      simp only [List.mem_cons, List.not_mem_nil, or_false] at hc
      rcases hc with rfl | rfl | rfl <;> exact ⟨⟨rfl, by decide, by decide⟩, X.fits_of (by decide)⟩)
    (by
      intro i j c d k hij hi hj hw ho
      have hl := fun xs => not_writes xs
      have hk := writesAt_lt hw
      match i, j, hij, hi, hj with
      | 0, _, _, hi, _ => cases hi; exact not_writes _ ⟨k, hw⟩
      | 1, _, _, hi, _ => cases hi; exact not_writes _ ⟨k, hw⟩
      | 2, 0, _, hi, hj => cases hi; cases hj; exact absurd ho.2.2 (by show ¬ 12 + k < 0 + 12; omega)
      | 2, 1, _, hi, hj => cases hi; cases hj; exact absurd ho.2.2 (by show ¬ 12 + k < 0 + 12; omega)
      | 2, j + 3, _, _, hj => cases hj
      | i + 3, _, _, hi, _ => cases hi)
  refine ⟨N, fun n hn => ⟨(hN n hn).1, fun i hi => ⟨((hN n hn).2 i hi).1, fun sched r hr => ?_⟩⟩⟩
  obtain ⟨c, r', p, l, -, -, e, -⟩ := ((hN n hn).2 i hi).2 sched r hr
  exact ⟨p, r'.ok, l, e⟩

/-- Goroutines that parse any slices, also of the same array: if there are no upper case letters in the percent escapes, there is no race. -/
theorem C75_lower {P : Prog} (hP : IsProgram files P) (X : Ext) (h : Heap) (cs : List (Buf × Bytes × List ParsingMode))
    (hb : ∀ c ∈ cs, c.1.has h c.2.1 ∧ X.Fits c.2.1) (hu : ∀ c ∈ cs, ∀ x, ¬ UpperEscape c.2.1 x) :
    ∃ N, ∀ n, N ≤ n → Always h (cs.map fun c => callParseT P X n (c.1.val c.2.1.length) c.2.2) fun i y =>
      ∃ c r p l, cs[i]? = some c ∧ parse c.2.1 (c.2.2.map withParsingMode) = .ok r ∧ y = .ok ([.ptr "URN" p, .bool r.ok], l) ∧ UrnPtr l p r.urn ∧
        c.1.Reads l c.2.1 :=
  C75_shared hP X h cs hb fun _ _ c _ k _ hi _ hw _ => hu c (List.mem_of_getElem? hi) k ((C75_letters c.2.1).1 _ k hw)

/-- Overlapping slices. -/
example {P : Prog} (hP : IsProgram files P) (X : Ext) : ∃ N, ∀ n, N ≤ n →
    Always [.arr (lit "urn:A:%2f%4a")] [callParseT P X n (.bytes 0 0 12 12) [], callParseT P X n (.bytes 0 0 9 12) [], callParseT P X n (.bytes 0 3 6 9) []] fun _ y =>
      ∃ p ok l, y = .ok ([.ptr "URN" p, .bool ok], l) := by
  have hl : ∀ s t w, lit "urn:A:%2f%4a" = s ++ (t ++ w) → ∀ x, ¬ UpperEscape t x := by
    rintro s t w e x ⟨c, h1, h2, h3⟩
    have key : ∀ {i c}, t[i]? = some c → (lit "urn:A:%2f%4a")[s.length + i]? = some c := fun {i c} h => by
      rw [e, List.getElem?_append_right (by omega), Nat.add_sub_cancel_left, List.getElem?_append_left (List.getElem?_eq_some_iff.1 h).1]
      exact h
    refine lower_lower (s.length + x) ⟨c, key h1, h2, ?_⟩
    rcases h3 with ⟨h3, h4⟩ | ⟨h3, h4⟩
    · exact .inl ⟨by omega, by rw [show s.length + x - 1 = s.length + (x - 1) by omega]; exact key h4⟩
    · exact .inr ⟨by omega, by rw [show s.length + x - 2 = s.length + (x - 2) by omega]; exact key h4⟩
  obtain ⟨N, hN⟩ := C75_lower hP X [.arr (lit "urn:A:%2f%4a")] [(.part 0 [] [] 12, lit "urn:A:%2f%4a", []),
      (.part 0 [] (lit "%4a") 12, lit "urn:A:%2f", []), (.part 0 (lit "urn") (lit "%4a") 9, lit ":A:%2f", [])]
    (by
      intro c hc
      simp only [List.mem_cons, List.not_mem_nil, or_false] at hc
      rcases hc with rfl | rfl | rfl <;> exact ⟨⟨rfl, by decide, by decide⟩, X.fits_of (by decide)⟩)
    (by
      intro c hc
      simp only [List.mem_cons, List.not_mem_nil, or_false] at hc
      rcases hc with rfl | rfl | rfl
      · exact hl [] _ [] rfl
      · exact hl [] _ (lit "%4a") rfl
      · exact hl (lit "urn") _ (lit "%4a") rfl)
  refine ⟨N, fun n hn => ⟨(hN n hn).1, fun i hi => ⟨((hN n hn).2 i hi).1, fun sched r hr => ?_⟩⟩⟩
  obtain ⟨c, r', p, l, -, -, e, -⟩ := ((hN n hn).2 i hi).2 sched r hr
  exact ⟨p, r'.ok, l, e⟩

/-- Any number of goroutines parse the same slice in the same way: they race exactly if there are at least two of them and the call writes. -/
theorem C75_same {P : Prog} (hP : IsProgram files P) (X : Ext) (h : Heap) (b : Buf) (s : Bytes) (hb : b.has h s) (hf : X.Fits s) (xs : List ParsingMode) :
    ∃ N, ∀ n, N ≤ n → ∀ k, Races h (List.replicate k (callParseT P X n (b.val s.length) xs)) ↔ 2 ≤ k ∧ Writes xs s := by
  obtain ⟨N, hN⟩ := parse_accs hP (xs := xs) hb hf
  refine ⟨N, fun n hn k => ⟨fun ⟨sched, hr⟩ => ?_, fun ⟨hk, hw⟩ => ?_⟩⟩
  · apply Classical.byContradiction
    intro hno
    have hnc : NoConflict h (List.replicate k (callParseT P X n (b.val s.length) xs)) := by
      intro i j t u x y hij hi hj hx hy hl hxy
      rw [List.getElem?_replicate] at hi hj
      by_cases hik : i < k
      case neg => rw [if_neg hik] at hi; cases hi
      by_cases hjk : j < k
      case neg => rw [if_neg hjk] at hj; cases hj
      rw [if_pos hik] at hi
      rw [if_pos hjk] at hj
      cases hi; cases hj
      obtain ⟨h1, h2, -⟩ := hN n hn
      have hl' : y.cell < h.length := hxy.1 ▸ hl
      refine hno ⟨by omega, ?_⟩
      rcases hxy.2.2 with e | e
      · obtain ⟨j, h3, -⟩ := (h1 x hx hl).common ((h1 x hx hl).conflict (h1 y hy hl') hxy)
        exact ⟨j, (h2 j).1 ⟨x, hx, e, h3⟩⟩
      · obtain ⟨j, h3, -⟩ := (h1 y hy hl').common ((h1 y hy hl').conflict (h1 x hx hl) ⟨hxy.1.symm, hxy.2.1.symm, hxy.2.2.symm⟩)
        exact ⟨j, (h2 j).1 ⟨y, hy, e, h3⟩⟩
    rw [(undisturbed hnc).noRace sched] at hr
    cases hr
  · obtain ⟨j, hw⟩ := hw
    obtain ⟨x, hx, hxw, hj⟩ := ((hN n hn).2.1 j).2 hw
    have hl := hj.lt hb
    exact races (i := 0) (j := 1) (by decide) (by rw [List.getElem?_replicate, if_pos (by omega)]) (by rw [List.getElem?_replicate, if_pos (by omega)]) hx hx hl
      ⟨rfl, write_meets _ _ x hx hxw, .inl hxw⟩

/-- Two race; one does not. -/
example {P : Prog} (hP : IsProgram files P) (X : Ext) : ∃ n,
    Races [.arr Cases.s8141] [callParseT P X n (.bytes 0 0 23 23) [RFC8141Only], callParseT P X n (.bytes 0 0 23 23) [RFC8141Only]] ∧
    ¬ Races [.arr Cases.s8141] [callParseT P X n (.bytes 0 0 23 23) [RFC8141Only]] := by
  obtain ⟨N, hN⟩ := C75_same hP X [.arr Cases.s8141] (.part 0 [] [] 23) Cases.s8141 ⟨rfl, by decide, by decide⟩ (X.fits_of (by decide)) [RFC8141Only]
  exact ⟨N, (hN N (Nat.le_refl _) 2).2 ⟨by decide, 14, writes8141⟩, fun h => absurd ((hN N (Nat.le_refl _) 1).1 h).1 (by decide)⟩

/-- For a text that is accepted: they race exactly if there are at least two of them and the namespace specific string of the result has an
upper case letter in a percent escape. -/
theorem C75_accepted {P : Prog} (hP : IsProgram files P) (X : Ext) (h : Heap) (b : Buf) (s : Bytes) (hb : b.has h s) (hf : X.Fits s)
    (mode : ParsingMode) (hk : KnownMode mode) (u : URN) (hu : ParsesTo mode s u) :
    ∃ N, ∀ n, N ≤ n → ∀ k, Races h (List.replicate k (callParseT P X n (b.val s.length) [mode])) ↔ 2 ≤ k ∧ ∃ x, UpperEscape u.SS x := by
  obtain ⟨N, hN⟩ := C75_same hP X h b s hb hf [mode]
  refine ⟨N, fun n hn k => (hN n hn k).trans (and_congr_right fun _ => ⟨fun ⟨j, h⟩ => ?_, fun ⟨x, h⟩ => ⟨_, ((C75_letters s).2 mode u hk hu _).2 ⟨x, rfl, h⟩⟩⟩)⟩
  obtain ⟨x, -, h⟩ := ((C75_letters s).2 mode u hk hu j).1 h
  exact ⟨x, h⟩

/-- With `%4A` three goroutines race. -/
example {P : Prog} (hP : IsProgram files P) (X : Ext) : ∃ n, Races [.arr Cases.s8141] (List.replicate 3 (callParseT P X n (.bytes 0 0 23 23) [RFC8141Only])) := by
  obtain ⟨N, hN⟩ := C75_accepted hP X [.arr Cases.s8141] (.part 0 [] [] 23) Cases.s8141 ⟨rfl, by decide, by decide⟩ (X.fits_of (by decide)) RFC8141Only Cases.k8141
    Cases.u8141 Cases.p8141
  exact ⟨N, (hN N (Nat.le_refl _) 3).2 ⟨by decide, 5, 65, rfl, rfl, Or.inr ⟨by decide, rfl⟩⟩⟩

/-- Goroutines that parse slices with texts that are accepted: they race exactly if a byte that one of them writes to is in the slice of
another. -/
theorem C75_races {P : Prog} (hP : IsProgram files P) (X : Ext) (h : Heap) (cs : List (Buf × Bytes × List ParsingMode))
    (hb : ∀ c ∈ cs, c.1.has h c.2.1 ∧ X.Fits c.2.1) (hu : ∀ c ∈ cs, ∃ r, parse c.2.1 (c.2.2.map withParsingMode) = .ok r ∧ r.urn ≠ none) :
    ∃ N, ∀ n, N ≤ n → (Races h (cs.map fun c => callParseT P X n (c.1.val c.2.1.length) c.2.2) ↔
      ∃ (i j : Nat) (c d : Buf × Bytes × List ParsingMode) (k : Nat), i ≠ j ∧ cs[i]? = some c ∧ cs[j]? = some d ∧ WritesAt c.2.2 c.2.1 k ∧
        d.1.Holds d.2.1.length c.1 k) := by
  by_cases hd : ∀ (i j : Nat) c d k, i ≠ j → cs[i]? = some c → cs[j]? = some d → WritesAt c.2.2 c.2.1 k → ¬ d.1.Holds d.2.1.length c.1 k
  · obtain ⟨N, hN⟩ := C75_shared hP X h cs hb hd
    refine ⟨N, fun n hn => ⟨fun ⟨sched, hr⟩ => ?_, fun ⟨i, j, c, d, k, hij, hi, hj, hw, hk⟩ => absurd hk (hd i j c d k hij hi hj hw)⟩⟩
    rw [(hN n hn).1 sched] at hr
    cases hr
  · obtain ⟨N, hN⟩ := bound_all cs _ fun c hc => parse_accs hP (xs := c.2.2) (hb c hc).1 (hb c hc).2
    refine ⟨N, fun n hn => ⟨fun _ => Classical.byContradiction fun hno => hd fun i j c d k hij hi hj hw hk =>
      hno ⟨i, j, c, d, k, hij, hi, hj, hw, hk⟩, fun ⟨i, j, c, d, k, hij, hi, hj, hw, hk⟩ => ?_⟩⟩
    have hc := List.mem_of_getElem? hi
    have hdm := List.mem_of_getElem? hj
    obtain ⟨x, hx, hxw, hxk⟩ := ((hN n hn c hc).2.1 k).2 hw
    obtain ⟨l, h1, h2⟩ := hxk.meets hk
    obtain ⟨r, hr, hru⟩ := hu d hdm
    obtain ⟨y, hy, hyl⟩ := (hN n hn d hdm).2.2 r hr hru l h1
    obtain ⟨h3, h4⟩ := h2 y hyl
    exact races (i := i) (j := j) hij (by rw [List.getElem?_map, hi]; rfl) (by rw [List.getElem?_map, hj]; rfl) hx hy (hxk.lt (hb c hc).1) ⟨h3, h4, .inl hxw⟩

/-- The same in terms of the results: goroutine `i` is given a mode and its text gives `u`.  They race exactly if the namespace specific
string of one result has an upper case letter in a percent escape and this byte is in the slice of another goroutine. -/
theorem C75_races_letters {P : Prog} (hP : IsProgram files P) (X : Ext) (h : Heap) (cs : List (Buf × Bytes × ParsingMode × URN))
    (hb : ∀ c ∈ cs, c.1.has h c.2.1 ∧ X.Fits c.2.1 ∧ KnownMode c.2.2.1 ∧ ParsesTo c.2.2.1 c.2.1 c.2.2.2) :
    ∃ N, ∀ n, N ≤ n → (Races h (cs.map fun c => callParseT P X n (c.1.val c.2.1.length) [c.2.2.1]) ↔
      ∃ (i j : Nat) (c d : Buf × Bytes × ParsingMode × URN) (x : Nat), i ≠ j ∧ cs[i]? = some c ∧ cs[j]? = some d ∧ UpperEscape c.2.2.2.SS x ∧
        d.1.Holds d.2.1.length c.1 (5 + c.2.2.2.ID.length + x)) := by
  obtain ⟨N, hN⟩ := C75_races hP X h (cs.map fun c => (c.1, c.2.1, [c.2.2.1])) (by
      intro c hc
      obtain ⟨d, hd, rfl⟩ := List.mem_map.1 hc
      exact ⟨(hb d hd).1, (hb d hd).2.1⟩) (by
      intro c hc
      obtain ⟨d, hd, rfl⟩ := List.mem_map.1 hc
      obtain ⟨r, h1, h2⟩ := (hb d hd).2.2.2
      exact ⟨r, h1, by rw [h2]; intro e; cases e⟩)
  refine ⟨N, fun n hn => ?_⟩
  have e := hN n hn
  rw [List.map_map] at e
  refine e.trans ⟨?_, ?_⟩
  · rintro ⟨i, j, c, d, k, hij, hi, hj, hw, hk⟩
    rw [List.getElem?_map] at hi hj
    obtain ⟨c', hc', rfl⟩ := Option.map_eq_some_iff.1 hi
    obtain ⟨d', hd', rfl⟩ := Option.map_eq_some_iff.1 hj
    obtain ⟨-, -, h3, h4⟩ := hb c' (List.mem_of_getElem? hc')
    obtain ⟨x, rfl, hx⟩ := ((C75_letters c'.2.1).2 _ _ h3 h4 k).1 hw
    exact ⟨i, j, c', d', x, hij, hc', hd', hx, hk⟩
  · rintro ⟨i, j, c, d, x, hij, hi, hj, hx, hk⟩
    obtain ⟨-, -, h3, h4⟩ := hb c (List.mem_of_getElem? hi)
    exact ⟨i, j, (c.1, c.2.1, [c.2.2.1]), (d.1, d.2.1, [d.2.2.1]), 5 + c.2.2.2.ID.length + x, hij, by rw [List.getElem?_map, hi]; rfl,
      by rw [List.getElem?_map, hj]; rfl, ((C75_letters c.2.1).2 _ _ h3 h4 _).2 ⟨x, rfl, hx⟩, hk⟩

/-- In `urn:a:urn:b:%2F` the whole and the last nine bytes are parsed with a race; the whole and the first nine bytes without one. -/
example {P : Prog} (hP : IsProgram files P) (X : Ext) : ∃ n,
    Races [.arr (lit "urn:a:urn:b:%2F")] [callParseT P X n (.bytes 0 0 15 15) [RFC2141Only], callParseT P X n (.bytes 0 6 9 9) [RFC2141Only]] ∧
    ¬ Races [.arr (lit "urn:a:urn:b:%2F")] [callParseT P X n (.bytes 0 0 15 15) [RFC2141Only], callParseT P X n (.bytes 0 0 9 15) [RFC2141Only]] := by
  have p1 : ParsesTo RFC2141Only (lit "urn:a:urn:b:%2F") (urn2141 (lit "urn") (lit "a") (lit "urn:b:%2F")) := parsesTo_of (by decide)
  have p2 : ParsesTo RFC2141Only (lit "urn:b:%2F") (urn2141 (lit "urn") (lit "b") (lit "%2F")) := parsesTo_of (by decide)
  have p3 : ParsesTo RFC2141Only (lit "urn:a:urn") (urn2141 (lit "urn") (lit "a") (lit "urn")) := parsesTo_of (by decide)
  have hk : KnownMode RFC2141Only := .inl rfl
  obtain ⟨N1, h1⟩ := C75_races_letters hP X [.arr (lit "urn:a:urn:b:%2F")] [
      (.part 0 [] [] 15, lit "urn:a:urn:b:%2F", RFC2141Only, urn2141 (lit "urn") (lit "a") (lit "urn:b:%2F")),
      (.part 0 (lit "urn:a:") [] 9, lit "urn:b:%2F", RFC2141Only, urn2141 (lit "urn") (lit "b") (lit "%2F"))] (by
    intro c hc
    simp only [List.mem_cons, List.not_mem_nil, or_false] at hc
    rcases hc with rfl | rfl
    · exact ⟨⟨rfl, by decide, by decide⟩, X.fits_of (by decide), hk, p1⟩
    · exact ⟨⟨rfl, by decide, by decide⟩, X.fits_of (by decide), hk, p2⟩)
  obtain ⟨N2, h2⟩ := C75_races_letters hP X [.arr (lit "urn:a:urn:b:%2F")] [
      (.part 0 [] [] 15, lit "urn:a:urn:b:%2F", RFC2141Only, urn2141 (lit "urn") (lit "a") (lit "urn:b:%2F")),
      (.part 0 [] (lit ":b:%2F") 15, lit "urn:a:urn", RFC2141Only, urn2141 (lit "urn") (lit "a") (lit "urn"))] (by
    intro c hc
    simp only [List.mem_cons, List.not_mem_nil, or_false] at hc
    rcases hc with rfl | rfl
    · exact ⟨⟨rfl, by decide, by decide⟩, X.fits_of (by decide), hk, p1⟩
    · exact ⟨⟨rfl, by decide, by decide⟩, X.fits_of (by decide), hk, p3⟩)
  have hu : ∀ x, UpperEscape (lit "urn:b:%2F") x → x = 8 := by
    rintro x ⟨c, h1, h2, -⟩
    match x with
    | 0 | 1 | 2 | 3 | 4 | 5 | 6 | 7 => cases h1; exact absurd h2 (by decide)
    | 8 => rfl
    | x + 9 => cases h1
  have hl : ∀ x, ¬ UpperEscape (lit "urn") x := by
    rintro x ⟨c, h1, h2, -⟩
    match x with
    | 0 | 1 | 2 => cases h1; exact absurd h2 (by decide)
    | x + 3 => cases h1
  refine ⟨N1 + N2, (h1 _ (by omega)).2 ?_, fun hr => ?_⟩
  · exact ⟨0, 1, _, _, 8, by decide, rfl, rfl, ⟨70, rfl, by decide, .inr ⟨by decide, rfl⟩⟩, rfl, by decide, by decide⟩
  · obtain ⟨i, j, c, d, x, hij, hi, hj, hx, hh⟩ := (h2 _ (by omega)).1 hr
    match i, j, hij, hi, hj with
    | 0, 1, _, hi, hj => cases hi; cases hj; cases hu x hx; exact absurd hh.2.2 (by decide)
    | 0, j + 2, _, _, hj => cases hj
    | 1, _, _, hi, _ => cases hi; exact hl x hx
    | i + 2, _, _, hi, _ => cases hi

end Urn.GoLang
