import Verif.GoRaceEnd
/-!
# Goroutines that run the text of the package

C73 of `properties.jsonl`: any number of goroutines run the program in the files of /repo at once, under any schedule.  `GoRace.lean`
says how; `GoRaceSpec.lean` says what is claimed.  A goroutine is a tree of accesses to memory (`GoTree.lean`), and `n` is a bound for
nested calls and loops, as in `Does`.
-/
set_option autoImplicit false
namespace Urn.GoLang
open Urn.Heap (Mem Got)

/-! ## The goroutines are the program -/

/-- A goroutine that is alone does what the interpreter does: for sequences of calls by a client, for one call and for `Parse`. -/
theorem C73_alone (P C : Prog) (X : Ext) (n : Nat) (h : Heap) :
    (∀ ss R, runText P C X n ss R h = (runTextT P C X n ss R).run h >>= fun y => .ok (y.1.1, y.1.2, y.2)) ∧
    (∀ f vs, callClient P C X n f vs h = (callClientT P C X n f vs).run h) ∧
    (∀ s xs, callParse P X n s xs h = (callParseT P X n s xs).run h) :=
  ⟨fun ss R => runText_same P C X n ss R h, fun f vs => callClient_same P C X n f vs h, fun s xs => callParse_same P X n s xs h⟩

/-- What is alone returns. -/
example {P : Prog} (hP : IsProgram files P) (X : Ext) : ∃ p h', Does (fun n => (callParseT P X n (.bytes 0 0 7 7) []).run [.arr (lit "urn:a:B")]) ([.ptr "URN" p, .bool true], h') := by
  obtain ⟨r, p, h', hr, h1, h2, h3, h4⟩ := C64_parse hP X [.arr (lit "urn:a:B")] (.part 0 [] [] 7) (lit "urn:a:B") ⟨rfl, by decide, by decide⟩ (X.fits_of (by decide)) []
  have : r.ok = true := by
    have h5 : parse (lit "urn:a:B") [] = .ok r := hr
    have h6 : ∃ q, parse (lit "urn:a:B") [] = .ok q ∧ q.ok = true := ⟨_, rfl, by decide⟩
    obtain ⟨q, h7, h8⟩ := h6
    rw [h5] at h7
    cases h7
    exact h8
  rw [this] at h1
  simp only [(C73_alone P P X _ _).2.2] at h1
  exact ⟨p, h', h1⟩

/-! ## Races -/

/-- There is a schedule with a race exactly if two of the goroutines, each of them alone, make accesses that are in conflict.  And
if there is none, then under every schedule every goroutine does what it does alone. -/
theorem C73_race_free {α : Type} (h : Heap) (ts : List (Io α)) : (Races h ts ↔ ¬ NoConflict h ts) ∧ (¬ Races h ts → Undisturbed h ts) := by
  have h1 : NoConflict h ts → ¬ Races h ts := fun hn ⟨sched, hs⟩ => by
    rw [(undisturbed hn).noRace sched] at hs
    cases hs
  refine ⟨⟨fun hr hn => h1 hn hr, conflict_races⟩, fun hr => ?_⟩
  exact undisturbed (Classical.byContradiction fun hn => hr (conflict_races hn))

/-- One that reads the first two bytes of an array of three: it does not race with one that reads all of them, and not with one that writes to
the last one, but with one that writes to the second one. -/
example : ¬ Races [.arr [1, 2, 3]] [Io.read 0 (.bytes 0 2) fun _ => pure (), Io.read 0 (.bytes 0 3) fun _ => pure ()] ∧
    ¬ Races [.arr [1, 2, 3]] [Io.read 0 (.bytes 0 2) fun _ => pure (), Io.write 0 (.byte 2 7) (pure ())] ∧
    Races [.arr [1, 2, 3]] [Io.read 0 (.bytes 0 2) fun _ => pure (), Io.write 0 (.byte 1 7) (pure ())] := by
  have key : ∀ (t u : Io Unit), (∀ x ∈ t.log [.arr [1, 2, 3]], ∀ y ∈ u.log [.arr [1, 2, 3]], ¬ x.Conflict y) → ¬ Races [.arr [1, 2, 3]] [t, u] := by
    intro t u hn hr
    refine (C73_race_free _ _).1.1 hr fun i j t' u' x y hij hi hj hx hy hl hc => ?_
    match i, j, hij, hi, hj with
    | 0, 1, _, hi, hj => cases hi; cases hj; exact hn x hx y hy hc
    | 1, 0, _, hi, hj => cases hi; cases hj; exact hn y hy x hx ⟨hc.1.symm, hc.2.1.symm, hc.2.2.symm⟩
    | i + 2, _, _, hi, _ => cases hi
    | 0, j + 2, _, _, hj => cases hj
    | 1, j + 2, _, _, hj => cases hj
  refine ⟨key _ _ ?_, key _ _ ?_, ⟨[0, 1], rfl⟩⟩
  · intro x hx y hy hc
    cases List.mem_singleton.1 hx
    cases List.mem_singleton.1 hy
    rcases hc.2.2 with h | h <;> cases h
  · intro x hx y hy hc
    cases List.mem_singleton.1 hx
    cases List.mem_singleton.1 hy
    exact absurd hc.2.1 (by decide)

/-- One that reads a field of a struct does not race with one that writes to another field, but with one that writes to this field, and with one
that writes to the whole struct. -/
example : ¬ Races [.obj (.struct "T" [("a", .int "int" 1), ("b", .int "int" 2)])]
      [Io.read 0 (.field "a") fun _ => pure (), Io.write 0 (.field "b" (.int "int" 3)) (pure ())] ∧
    Races [.obj (.struct "T" [("a", .int "int" 1), ("b", .int "int" 2)])]
      [Io.read 0 (.field "b") fun _ => pure (), Io.write 0 (.field "b" (.int "int" 3)) (pure ())] ∧
    Races [.obj (.struct "T" [("a", .int "int" 1), ("b", .int "int" 2)])]
      [Io.read 0 (.field "b") fun _ => pure (), Io.write 0 (.all (.struct "T" [])) (pure ())] := by
  refine ⟨fun hr => ?_, ⟨[0, 1], by decide⟩, ⟨[0, 1], by decide⟩⟩
  refine (C73_race_free _ _).1.1 hr fun i j t' u' x y hij hi hj hx hy hl hc => ?_
  match i, j, hij, hi, hj with
  | 0, 1, _, hi, hj =>
      cases hi; cases hj
      cases List.mem_singleton.1 hx
      cases List.mem_singleton.1 hy
      exact absurd hc.2.1 (by decide)
  | 1, 0, _, hi, hj =>
      cases hi; cases hj
      cases List.mem_singleton.1 hx
      cases List.mem_singleton.1 hy
      exact absurd hc.2.1 (by decide)
  | i + 2, _, _, hi, _ => cases hi
  | 0, j + 2, _, _, hj => cases hj
  | 1, j + 2, _, _, hj => cases hj

/-! ## URNs that are shared -/

/-- The main goroutine makes any calls, and then starts goroutines that have some of its pointers.  If no goroutine writes to what another
one can reach, then there is no race and each of them returns what the model says for its own calls. -/
theorem C73_shared {P C : Prog} (hP : IsProgram files P) (hC : IsProgram [clientGo] C) (X : Ext) (ss : List Step) (hf : ∀ s ∈ ss, s.Fits X) (h0 : Heap)
    (gs : List Got) (R : Regs) (M : Mem) (hm : runModel X ss {} {} = .ok (gs, R, M)) (cs : List (Regs × List Step))
    (hR : ∀ c ∈ cs, (∀ p ∈ c.1.urns, p ∈ R.urns) ∧ ∀ p ∈ c.1.scims, p ∈ R.scims) (hfs : ∀ c ∈ cs, ∀ s ∈ c.2, s.Fits X)
    (hsep : ∀ (i j : Nat) c d, i ≠ j → cs[i]? = some c → cs[j]? = some d → ∀ p ∈ targets X c.2 c.1 M, ¬ d.1.Reach M p) :
    ∃ f g R' h, Does (fun n => runText P C X n ss {} h0) (valsAll X f g ss gs, R', h) ∧ SameEnd f g M R h R' ∧
      ∃ N, ∀ n, N ≤ n → Always h (cs.map fun c => runTextT P C X n c.2 (c.1.addr f g)) fun i r =>
        ∃ c, cs[i]? = some c ∧ Returned X f g M c.2 (runModel X c.2 c.1 M) r := by
  cases program_eq hP
  cases client_eq hC
  have hg := run_good (X := X) ss hf (R := {}) (Sim.empty h0) ⟨by simp, by simp⟩
  rw [hm] at hg
  obtain ⟨U, S, h, h1, h2, h3, h4, h5⟩ := hg
  have hfit : ∀ c ∈ cs, RegsFit c.1 U S := fun c hc => h3.sub (hR c hc).1 (hR c hc).2
  refine ⟨_, _, _, h, h1, h2.sameEnd h3, ?_⟩
  obtain ⟨N, hN⟩ := bound_all cs _ fun c hc => returned_of h2 (hfit c hc) c.2 (hfs c hc)
  refine ⟨N, fun n hn => always_of (noConflict_shared h2 hfit hfs hsep n) fun i t ht r hr => ?_⟩
  rw [List.getElem?_map] at ht
  cases hi : cs[i]? with
  | none => rw [hi] at ht; cases ht
  | some c =>
      rw [hi] at ht
      cases ht
      exact ⟨c, rfl, hN n hn c (List.mem_of_getElem? hi) r hr⟩

/-- Two goroutines with a URN of their own. -/
example {P C : Prog} (hP : IsProgram files P) (hC : IsProgram [clientGo] C) (X : Ext) (h0 : Heap) : ∃ a b R' h,
    Does (fun n => runText P C X n [.newURN, .newURN] {} h0) ([[.ptr "URN" (some a)], [.ptr "URN" (some b)]], R', h) ∧
      ∃ N, ∀ n, N ≤ n → Always h [runTextT P C X n [.setID 0 (lit "x"), .setSS 0 (lit "y"), .stringOf 0] ⟨[some a], []⟩,
          runTextT P C X n [.setID 0 (lit "z"), .stringOf 0] ⟨[some b], []⟩] fun i r =>
        (i = 0 → ∃ R' h', r = .ok (([[], [], [.str (lit "urn:x:y")]], R'), h')) ∧ (i = 1 → ∃ R' h', r = .ok (([[], [.str []]], R'), h')) := by
  obtain ⟨f, g, R', h, h1, ⟨⟨-, h2⟩, -⟩, N, hN⟩ := C73_shared hP hC X [.newURN, .newURN] (by simp [Step.Fits]) h0 _ _ _ rfl
    [(⟨[some 0], []⟩, [.setID 0 (lit "x"), .setSS 0 (lit "y"), .stringOf 0]), (⟨[some 1], []⟩, [.setID 0 (lit "z"), .stringOf 0])]
    (by simp [Regs.addGot]) (by simp [Step.Fits]) (by
      intro i j c d hij hi hj p hp
      match i, j, hij, hi, hj with
      | 0, 1, _, hi, hj =>
          cases hi; cases hj
          have hp : p ∈ [Place.urn 0, .urn 0] := hp
          have : p = .urn 0 := by simpa using hp
          subst this
          simp [Regs.Reach]
      | 1, 0, _, hi, hj =>
          cases hi; cases hj
          have hp : p ∈ [Place.urn 1] := hp
          have : p = .urn 1 := by simpa using hp
          subst this
          simp [Regs.Reach]
      | i + 2, _, _, hi, _ => cases hi
      | 0, j + 2, _, _, hj => cases hj
      | 1, j + 2, _, _, hj => cases hj)
  obtain ⟨⟨a, ha⟩, -⟩ := h2 0 (by decide)
  obtain ⟨⟨b, hb⟩, -⟩ := h2 1 (by decide)
  refine ⟨a, b, R', h, ?_, N, fun n hn => ?_⟩
  · have : valsAll X f g [.newURN, .newURN] [.urn (some 0) true, .urn (some 1) true] = [[.ptr "URN" (some a)], [.ptr "URN" (some b)]] := by
      simp [valsAll, Step.vals, ha, hb]
    rw [← this]
    exact h1
  · have hA := hN n hn
    simp only [List.map_cons, List.map_nil, Regs.addr, ha, hb] at hA
    refine ⟨hA.1, fun i hi => ⟨(hA.2 i hi).1, fun sched r hr => ⟨?_, ?_⟩⟩⟩
    · rintro rfl
      obtain ⟨c, hc, hq⟩ := (hA.2 0 hi).2 sched r hr
      cases hc
      obtain ⟨f', g', R', h', hq, -⟩ := hq
      exact ⟨R', h', hq⟩
    · rintro rfl
      obtain ⟨c, hc, hq⟩ := (hA.2 1 hi).2 sched r hr
      cases hc
      obtain ⟨f', g', R', h', hq, -⟩ := hq
      exact ⟨R', h', hq⟩

/-- Goroutines that do not assign and do not call `UnmarshalJSON` can share all URNs and SCIM structs. -/
theorem C73_readers {P C : Prog} (hP : IsProgram files P) (hC : IsProgram [clientGo] C) (X : Ext) (ss : List Step) (hf : ∀ s ∈ ss, s.Fits X) (h0 : Heap)
    (gs : List Got) (R : Regs) (M : Mem) (hm : runModel X ss {} {} = .ok (gs, R, M)) (cs : List (List Step))
    (hfs : ∀ c ∈ cs, ∀ s ∈ c, s.Fits X) (hr : ∀ c ∈ cs, ∀ s ∈ c, s.reads = true) :
    ∃ f g R' h, Does (fun n => runText P C X n ss {} h0) (valsAll X f g ss gs, R', h) ∧ SameEnd f g M R h R' ∧
      ∃ N, ∀ n, N ≤ n → Always h (cs.map fun c => runTextT P C X n c R') fun i r =>
        ∃ c, cs[i]? = some c ∧ Returned X f g M c (runModel X c R M) r := by
  have hmem : ∀ {i : Nat} {c : Regs × List Step}, (cs.map fun c => (R, c))[i]? = some c → c.1 = R ∧ cs[i]? = some c.2 := fun {i c} hi => by
    rw [List.getElem?_map] at hi
    cases hc : cs[i]? with
    | none => rw [hc] at hi; cases hi
    | some d => rw [hc] at hi; cases hi; exact ⟨rfl, rfl⟩
  obtain ⟨f, g, R', h, h1, h2, N, hN⟩ := C73_shared hP hC X ss hf h0 gs R M hm (cs.map fun c => (R, c))
    (fun c hc => by
      obtain ⟨d, _, rfl⟩ := List.mem_map.1 hc
      exact ⟨fun _ hp => hp, fun _ hp => hp⟩)
    (fun c hc => by
      obtain ⟨d, hd, rfl⟩ := List.mem_map.1 hc
      exact hfs d hd)
    (fun i j c d hij hi hj p hp => by
      rw [targets_reads c.2 (hr c.2 (List.mem_of_getElem? (hmem hi).2))] at hp
      cases hp)
  refine ⟨f, g, R', h, h1, h2, N, fun n hn => ?_⟩
  have e : R' = R.addr f g := by
    obtain ⟨-, -, e1, e2, -⟩ := h2
    cases R'
    cases e1; cases e2
    rfl
  have hA := hN n hn
  rw [List.map_map] at hA
  rw [e]
  refine ⟨hA.1, fun i hi => ⟨(hA.2 i hi).1, fun sched r hr => ?_⟩⟩
  obtain ⟨c, hc, hq⟩ := (hA.2 i hi).2 sched r hr
  obtain ⟨e1, e2⟩ := hmem hc
  rw [e1] at hq
  exact ⟨c.2, e2, hq⟩

/-- Two goroutines use the same URN; one of them also parses. -/
example {P C : Prog} (hP : IsProgram files P) (hC : IsProgram [clientGo] C) (X : Ext) (h0 : Heap) : ∃ a R' h,
    Does (fun n => runText P C X n [.newURN, .setID 0 (lit "a"), .setSS 0 (lit "B")] {} h0) ([[.ptr "URN" (some a)], [], []], R', h) ∧
      ∃ N, ∀ n, N ≤ n → Always h [runTextT P C X n [.stringOf 0, .getSS 0] R',
          runTextT P C X n [.parse (lit "urn:ietf:params:scim:api:a") [RFC7643Only], .equal 0 0, .stringOf 1] R'] fun i r =>
        (i = 0 → ∃ R' h', r = .ok (([[.str (lit "urn:a:B")], [.str (lit "B")]], R'), h')) ∧
        (i = 1 → ∃ b e R' h', r = .ok (([[.ptr "URN" (some b), .bool true], [.bool e], [.str (lit "urn:ietf:params:scim:api:a")]], R'), h')) := by
  have hp : Urn.parse (lit "urn:ietf:params:scim:api:a") [withParsingMode RFC7643Only] = _ := parse_mode _ _
  have hm : ∃ R M, runModel X [.newURN, .setID 0 (lit "a"), .setSS 0 (lit "B")] {} {} = .ok ([.urn (some 0) true, .unit, .unit], R, M) ∧ M.urns.length = 1 ∧
      (∃ R1 M1, runModel X [.stringOf 0, .getSS 0] R M = .ok ([.bytes (lit "urn:a:B"), .bytes (lit "B")], R1, M1)) ∧
      ∃ e R2 M2, runModel X [.parse (lit "urn:ietf:params:scim:api:a") [RFC7643Only], .equal 0 0, .stringOf 1] R M =
        .ok ([.urn (some 1) true, .bool e, .bytes (lit "urn:ietf:params:scim:api:a")], R2, M2) ∧ M2.urns.length = 2 := by
    refine ⟨_, _, rfl, rfl, ⟨_, _, rfl⟩, ?_⟩
    simp only [runModel, Step.act, List.map_cons, List.map_nil, Urn.Heap.Mem.act, hp]
    exact ⟨_, _, _, rfl, rfl⟩
  obtain ⟨R, M, hm, hl, ⟨R1, M1, hm1⟩, e, R2, M2, hm2, hl2⟩ := hm
  obtain ⟨f, g, R', h, h1, ⟨⟨-, h2⟩, -⟩, N, hN⟩ := C73_readers hP hC X _ (by simp [Step.Fits]) h0 _ _ _ hm
    [[.stringOf 0, .getSS 0], [.parse (lit "urn:ietf:params:scim:api:a") [RFC7643Only], .equal 0 0, .stringOf 1]]
    (by simp [Step.Fits, X.fits_of (s := lit "urn:ietf:params:scim:api:a") (by decide)]) (by simp [Step.reads])
  obtain ⟨⟨a, ha⟩, -⟩ := h2 0 (by omega)
  refine ⟨a, R', h, ?_, N, fun n hn => ?_⟩
  · simpa [valsAll, Step.vals, ha] using h1
  · have hA := hN n hn
    simp only [List.map_cons, List.map_nil] at hA
    refine ⟨hA.1, fun i hi => ⟨(hA.2 i hi).1, fun sched r hr => ⟨?_, ?_⟩⟩⟩
    · rintro rfl
      obtain ⟨c, hc, hq⟩ := (hA.2 0 hi).2 sched r hr
      cases hc
      rw [hm1] at hq
      obtain ⟨f', g', R', h', hq, -⟩ := hq
      exact ⟨R', h', hq⟩
    · rintro rfl
      obtain ⟨c, hc, hq⟩ := (hA.2 1 hi).2 sched r hr
      cases hc
      rw [hm2] at hq
      obtain ⟨f', g', R', h', hq, -, -, -, ⟨-, hi⟩, -⟩ := hq
      obtain ⟨⟨b, hb⟩, -⟩ := hi 1 (by omega)
      exact ⟨b, e, R', h', by simpa [valsAll, Step.vals, hb] using hq⟩

/-- One goroutine writes to a field of a URN, and another one makes a call whose result depends on it: there is a race. -/
theorem C73_writer {P C : Prog} (hP : IsProgram files P) (hC : IsProgram [clientGo] C) (X : Ext) (ss : List Step) (hf : ∀ s ∈ ss, s.Fits X) (h0 : Heap)
    (gs : List Got) (R : Regs) (M : Mem) (hm : runModel X ss {} {} = .ok (gs, R, M)) (p : Nat) (v : Bytes) (s : Step) (hs : s.Fits X) (b b' : Bytes)
    (R1 R2 : Regs) (M1 M2 : Mem) (h1 : runModel X [s] R M = .ok ([.bytes b], R1, M1))
    (h2 : runModel X [.setID p v, s] R M = .ok ([.unit, .bytes b'], R2, M2)) (hb : b ≠ b') :
    ∃ vss R' h, Does (fun n => runText P C X n ss {} h0) (vss, R', h) ∧
      ∃ N, ∀ n, N ≤ n → Races h [runTextT P C X n [.setID p v] R', runTextT P C X n [s] R'] := by
  cases program_eq hP
  cases client_eq hC
  have hg := run_good (X := X) ss hf (R := {}) (Sim.empty h0) ⟨by simp, by simp⟩
  rw [hm] at hg
  obtain ⟨U, S, h, hd, r, hR, h4, h5⟩ := hg
  refine ⟨_, _, h, hd, ?_⟩
  simp only [List.nil_append] at r hR ⊢
  exact writer_races r hR hs h1 h2 hb

/-- `String` and an assignment to a field. -/
example {P C : Prog} (hP : IsProgram files P) (hC : IsProgram [clientGo] C) (X : Ext) (h0 : Heap) : ∃ vss R' h,
    Does (fun n => runText P C X n [.newURN, .setID 0 (lit "a"), .setSS 0 (lit "B")] {} h0) (vss, R', h) ∧
      ∃ N, ∀ n, N ≤ n → Races h [runTextT P C X n [.setID 0 (lit "x")] R', runTextT P C X n [.stringOf 0] R'] :=
  C73_writer hP hC X _ (by simp [Step.Fits]) h0 _ _ _ rfl 0 (lit "x") (.stringOf 0) trivial (lit "urn:a:B") (lit "urn:x:B") _ _ _ _ rfl rfl (by decide)

/-! ## Parsing -/

/-- `Parse` accesses no memory that was there but the bytes of its slice. -/
theorem C73_within {P : Prog} (hP : IsProgram files P) (X : Ext) (h : Heap) (b : Buf) (s : Bytes) (hb : b.has h s) (hf : X.Fits s) (xs : List ParsingMode) :
    ∃ N, ∀ n, N ≤ n → ∀ x ∈ (callParseT P X n (b.val s.length) xs).log h, x.cell < h.length → b.Owns s.length x := by
  obtain ⟨N, hN⟩ := parse_always hP X h [(b, s, xs)] (by simp [hb, hf])
  exact ⟨N, fun n hn => (hN n hn).1 (b, s, xs) (by simp)⟩

/-- Nine bytes in the middle of an array. -/
example {P : Prog} (hP : IsProgram files P) (X : Ext) : ∃ N, ∀ n, N ≤ n →
    ∀ x ∈ (callParseT P X n (.bytes 1 1 9 11) [RFC8141Only]).log [.obj (.str []), .arr (lit "xurn:a:%2Fyz")], x.cell < 2 →
      x.cell = 1 ∧ ∃ i k, x.part = .bytes i k ∧ 1 ≤ i ∧ i + k ≤ 10 :=
  C73_within hP X [.obj (.str []), .arr (lit "xurn:a:%2Fyz")] (.part 1 (lit "x") (lit "yz") 11) (lit "urn:a:%2F") ⟨rfl, by decide, by decide⟩ (X.fits_of (by decide)) [RFC8141Only]

/-- Goroutines that parse slices, also of the same array, that have no bytes in common: there is no race, each of them gets what the model
says, and its slice is as before. -/
theorem C73_parse {P : Prog} (hP : IsProgram files P) (X : Ext) (h : Heap) (cs : List (Buf × Bytes × List ParsingMode))
    (hb : ∀ c ∈ cs, c.1.has h c.2.1 ∧ X.Fits c.2.1)
    (hd : ∀ (i j : Nat) c d, i ≠ j → cs[i]? = some c → cs[j]? = some d → ¬ c.1.Overlap c.2.1.length d.1 d.2.1.length) :
    ∃ N, ∀ n, N ≤ n → Always h (cs.map fun c => callParseT P X n (c.1.val c.2.1.length) c.2.2) fun i y =>
      ∃ c r p l, cs[i]? = some c ∧ parse c.2.1 (c.2.2.map withParsingMode) = .ok r ∧ y = .ok ([.ptr "URN" p, .bool r.ok], l) ∧ UrnPtr l p r.urn ∧
        c.1.Reads l c.2.1 := by
  obtain ⟨N, hN⟩ := parse_always hP X h cs hb
  refine ⟨N, fun n hn => ((hN n hn).2 (noConflict_map fun i j c d x y hij hi hj hx hy hl hxy => ?_)).mono ?_⟩
  · exact hd i j c d hij hi hj (((hN n hn).1 c (List.mem_of_getElem? hi) x hx hl).overlap ((hN n hn).1 d (List.mem_of_getElem? hj) y hy (hxy.1 ▸ hl)) hxy)
  · rintro i y ⟨c, r, p, l, h1, h2, h3, h4, h5⟩
    exact ⟨c, r, p, l, h1, h2, h3, h4, h5 fun j d x hj hdj hx _ hl ht =>
      hd i j c d (fun e => hj e.symm) h1 hdj (((hN n hn).1 d (List.mem_of_getElem? hdj) x hx hl).touches ht)⟩

/-- Two goroutines that parse parts of the same array, one after the other in it. -/
example {P : Prog} (hP : IsProgram files P) (X : Ext) : ∃ N, ∀ n, N ≤ n →
    Always [.arr (lit "urn:a:%2Furn:b:%2F")] [callParseT P X n (.bytes 0 0 9 18) [], callParseT P X n (.bytes 0 9 9 9) [RFC8141Only]] fun _ y =>
      ∃ p ok l, y = .ok ([.ptr "URN" p, .bool ok], l) := by
  obtain ⟨N, hN⟩ := C73_parse hP X [.arr (lit "urn:a:%2Furn:b:%2F")] [(.part 0 [] (lit "urn:b:%2F") 18, lit "urn:a:%2F", []), (.part 0 (lit "urn:a:%2F") [] 9, lit "urn:b:%2F", [RFC8141Only])]
    (by
      intro c hc
      rcases List.mem_cons.1 hc with rfl | hc
      · exact ⟨⟨rfl, by decide, by decide⟩, X.fits_of (by decide)⟩
      · rcases List.mem_cons.1 hc with rfl | hc
        · exact ⟨⟨rfl, by decide, by decide⟩, X.fits_of (by decide)⟩
        · cases hc)
    (by
      intro i j c d hij hi hj
      match i, j, hij, hi, hj with
      | 0, 1, _, hi, hj => cases hi; cases hj; exact fun h => absurd h.2.2.2.2 (by decide)
      | 1, 0, _, hi, hj => cases hi; cases hj; exact fun h => absurd h.2.2.2.1 (by decide)
      | i + 2, _, _, hi, _ => cases hi
      | 0, j + 2, _, _, hj => cases hj
      | 1, j + 2, _, _, hj => cases hj)
  refine ⟨N, fun n hn => ⟨(hN n hn).1, fun i hi => ⟨((hN n hn).2 i hi).1, fun sched r hr => ?_⟩⟩⟩
  obtain ⟨c, r', p, l, -, -, e, -⟩ := ((hN n hn).2 i hi).2 sched r hr
  exact ⟨p, r'.ok, l, e⟩

/-- Two goroutines that parse the same slice can race: `Parse` changes letters of the slice to lower case and then back. -/
theorem C73_same_slice {P : Prog} (hP : IsProgram files P) (X : Ext) : ∃ (s : Bytes) (n : Nat),
    (∃ r, callParse P X n (.bytes 0 0 s.length s.length) [] [.arr s] = .ok r) ∧
    Races [.arr s] [callParseT P X n (.bytes 0 0 s.length s.length) [], callParseT P X n (.bytes 0 0 s.length s.length) []] := by
  cases program_eq hP
  have h := parseLog_write X
  have h1 := congrArg Prod.fst h
  obtain ⟨r, hr⟩ := Res.isOk_iff (congrArg Prod.snd h)
  obtain ⟨x, hx, hw⟩ := List.any_eq_true.1 h1
  rw [Bool.and_eq_true, beq_iff_eq] at hw
  have hl : x.cell < ([.arr (lit "urn:a:%2F")] : Heap).length := by rw [hw.2]; decide
  exact ⟨lit "urn:a:%2F", 200, ⟨r, (callParse_same _ _ _ _ _ _).trans hr⟩, races (i := 0) (j := 1) (by decide) rfl rfl hx hx hl ⟨rfl, write_meets _ _ x hx hw.1, .inl hw.1⟩⟩

/-! ## The checks -/

/-- Goroutines that run the checks of C69 with slices of different arrays: there is no race, and all checks return true. -/
theorem C73_checks {P C : Prog} (hP : IsProgram files P) (hC : IsProgram [checkGo] C) (X : Ext) (h : Heap) (cs : List (String × List Val × List Buf))
    (hc : ∀ c ∈ cs, Check X h c.1 c.2.1 c.2.2)
    (hd : ∀ (i j : Nat) c d, i ≠ j → cs[i]? = some c → cs[j]? = some d → ∀ a ∈ c.2.2.flatMap Buf.cells, a ∉ d.2.2.flatMap Buf.cells) :
    ∃ N, ∀ n, N ≤ n → Always h (cs.map fun c => callClientT P C X n c.1 c.2.1) fun _ y => ∃ l, y = .ok ([.bool true], l) := by
  have hown : ∀ c ∈ cs, ∃ N, ∀ n, N ≤ n → (∃ g, (callClientT P C X n c.1 c.2.1).run (mask (fun a => (c.2.2.flatMap Buf.cells).contains a) h) = .ok ([.bool true], g)) ∧
      ∃ k, (callClientT P C X n c.1 c.2.1).run h = .ok ([.bool true], k) := by
    intro c hcs
    obtain ⟨g, N, hN⟩ := ((hc c hcs).mask (own := fun a => (c.2.2.flatMap Buf.cells).contains a) (fun b hb a ha => by
      simp only [List.contains_iff_mem]
      exact List.mem_flatMap.2 ⟨b, hb, ha⟩)).holds hP hC
    obtain ⟨k, K, hK⟩ := (hc c hcs).holds hP hC
    refine ⟨N + K, fun n hn => ⟨⟨g, ?_⟩, ⟨k, ?_⟩⟩⟩
    · rw [← callClient_same]; exact hN n (by omega)
    · rw [← callClient_same]; exact hK n (by omega)
  obtain ⟨N, hN⟩ := bound_all cs _ hown
  refine ⟨N, fun n hn => always_of (noConflict_own (own := fun c => c.2.2.flatMap Buf.cells) hd fun c hc e => ?_) fun i t ht y hy => ?_⟩
  · obtain ⟨⟨g, h2⟩, -⟩ := hN n hn c hc
    rw [h2] at e
    cases e
  · rw [List.getElem?_map] at ht
    cases hi : cs[i]? with
    | none => rw [hi] at ht; cases ht
    | some c =>
        rw [hi] at ht
        cases ht
        obtain ⟨-, k, h2⟩ := hN n hn c (List.mem_of_getElem? hi)
        rw [h2] at hy
        cases y with
        | ok y =>
            obtain ⟨vs, l⟩ := y
            obtain ⟨e, -⟩ := hy
            cases e
            exact ⟨l, rfl⟩
        | _ => exact hy.elim

/-- Three checks at once. -/
example {P C : Prog} (hP : IsProgram files P) (hC : IsProgram [checkGo] C) (X : Ext) : ∃ N, ∀ n, N ≤ n →
    Always [.arr (lit "urn:a:B"), .arr (lit "urn:b:%2F")] [callClientT P C X n "unchanged" [.bytes 0 0 7 7, .int "ParsingMode" 5],
      callClientT P C X n "roundTrip" [.bytes 1 0 9 9], callClientT P C X n "built" [.str (lit "a"), .str []]] fun _ y => ∃ l, y = .ok ([.bool true], l) := by
  refine C73_checks hP hC X [.arr (lit "urn:a:B"), .arr (lit "urn:b:%2F")] [("unchanged", [.bytes 0 0 7 7, .int "ParsingMode" 5], [.part 0 [] [] 7]),
    ("roundTrip", [.bytes 1 0 9 9], [.part 1 [] [] 9]), ("built", [.str (lit "a"), .str []], [])] ?_ ?_
  · intro c hc
    simp only [List.mem_cons, List.not_mem_nil, or_false] at hc
    rcases hc with rfl | rfl | rfl
    · exact .unchanged (.part 0 [] [] 7) (lit "urn:a:B") ⟨rfl, by decide, by decide⟩ (X.fits_of (by decide)) 5
    · exact .roundTrip (.part 1 [] [] 9) (lit "urn:b:%2F") ⟨rfl, by decide, by decide⟩ (X.fits_of (by decide))
    · exact .built _ _
  · intro i j c d hij hi hj
    match i, j, hij, hi, hj with
    | 0, 1, _, hi, hj => cases hi; cases hj; decide
    | 0, 2, _, hi, hj => cases hi; cases hj; decide
    | 1, 0, _, hi, hj => cases hi; cases hj; decide
    | 1, 2, _, hi, hj => cases hi; cases hj; decide
    | 2, 0, _, hi, hj => cases hi; cases hj; decide
    | 2, 1, _, hi, hj => cases hi; cases hj; decide
    | i + 3, _, _, hi, _ => cases hi
    | 0, j + 3, _, _, hj => cases hj
    | 1, j + 3, _, _, hj => cases hj
    | 2, j + 3, _, _, hj => cases hj

end Urn.GoLang
