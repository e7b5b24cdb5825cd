import Verif.GoField
import Verif.GoAssign
import Verif.GoDoes
import Verif.PropsRace
/-!
# Goroutines that use different fields of the same structs (C73)
-/
set_option autoImplicit false
namespace Urn.GoLang
open Urn.Heap (Mem Got)

/-- Goroutines with pointers to the same URNs and SCIM structs do not race, and get the results that they get one at a time, if no field that one of
them assigns to is used by another.  `uses` has what calls use, by the pointers that they have then: for example `Equal` uses the field `ID` and the
normal form of both URNs, not their field `SS`. -/
theorem C73_fields {P C : Prog} (hP : IsProgram files P) (hC : IsProgram [clientGo] C) (X : Ext) (ss : List Step) (hf : ∀ s ∈ ss, s.Fits X) (h0 : Heap)
    (gs : List Got) (R : Regs) (M : Mem) (hm : runModel X ss {} {} = .ok (gs, R, M)) (cs : List (Regs × List Step))
    (hR : ∀ c ∈ cs, (∀ p ∈ c.1.urns, p ∈ R.urns) ∧ ∀ p ∈ c.1.scims, p ∈ R.scims) (hfs : ∀ c ∈ cs, ∀ s ∈ c.2, s.Fits X)
    (hsep : ∀ (i j : Nat) c d, i ≠ j → cs[i]? = some c → cs[j]? = some d → ∀ u ∈ uses X c.2 c.1 M, ∀ v ∈ uses X d.2 d.1 M, u.place = v.place → u.place.In M →
      u.part.Meets v.part → u.write = false ∧ v.write = false) :
    ∃ f g R' h, Does (fun n => runText P C X n ss {} h0) (valsAll X f g ss gs, R', h) ∧ SameEnd f g M R h R' ∧
      ∃ N, ∀ n, N ≤ n → Always h (cs.map fun c => runTextT P C X n c.2 (c.1.addr f g)) fun i r =>
        ∃ c, cs[i]? = some c ∧ Returned X f g M c.2 (runModel X c.2 c.1 M) r := by
  cases program_eq hP
  cases client_eq hC
  have hg := run_good (X := X) ss hf (R := {}) (Sim.empty h0) ⟨by simp, by simp⟩
  rw [hm] at hg
  obtain ⟨U, S, h, h1, h2, h3, h4, h5⟩ := hg
  have hfit : ∀ c ∈ cs, RegsFit c.1 U S := fun c hc => h3.sub (hR c hc).1 (hR c hc).2
  refine ⟨_, _, _, h, h1, h2.sameEnd h3, ?_⟩
  obtain ⟨N, hN⟩ := bound_all cs _ fun c hc => returned_of h2 (hfit c hc) c.2 (hfs c hc)
  refine ⟨N, fun n hn => always_of (noConflict_uses h2 hfit hfs hsep n) fun i t ht r hr => ?_⟩
  rw [List.getElem?_map] at ht
  cases hi : cs[i]? with
  | none => rw [hi] at ht; cases ht
  | some c =>
      rw [hi] at ht
      cases ht
      exact ⟨c, rfl, hN n hn c (List.mem_of_getElem? hi) r hr⟩

/-- Two goroutines use the same URN: one assigns `SS` and reads it, the other one reads `ID`, calls `Equal`, `RFC` and `Normalize`, and reads the field
`SS` of the result of `Normalize`. -/
example {P C : Prog} (hP : IsProgram files P) (hC : IsProgram [clientGo] C) (X : Ext) (h0 : Heap) : ∃ a R' h,
    Does (fun n => runText P C X n [.newURN, .setID 0 (lit "a")] {} h0) ([[.ptr "URN" (some a)], []], R', h) ∧
      ∃ N, ∀ n, N ≤ n → Always h [runTextT P C X n [.setSS 0 (lit "b"), .getSS 0] ⟨[some a], []⟩,
          runTextT P C X n [.getID 0, .equal 0 0, .rfc 0, .normalize 0, .getSS 1] ⟨[some a], []⟩] fun i r =>
        (i = 0 → ∃ R' h', r = .ok (([[], [.str (lit "b")]], R'), h')) ∧
        (i = 1 → ∃ b R' h', r = .ok (([[.str (lit "a")], [.bool true], [.int "Kind" 0], [.ptr "URN" (some b)], [.str []]], R'), h')) := by
  have huses : ∀ u ∈ uses X [.setSS 0 (lit "b"), .getSS 0] ⟨[some 0], []⟩ ⟨[⟨{ ID := lit "a" }, none⟩], []⟩, u.part = .field "SS" := by
    have e : uses X [.setSS 0 (lit "b"), .getSS 0] ⟨[some 0], []⟩ ⟨[⟨{ ID := lit "a" }, none⟩], []⟩ = [⟨true, .urn 0, .field "SS"⟩, ⟨false, .urn 0, .field "SS"⟩] := rfl
    rw [e]
    simp
  have huses' : ∀ u ∈ uses X [.getID 0, .equal 0 0, .rfc 0, .normalize 0, .getSS 1] ⟨[some 0], []⟩ ⟨[⟨{ ID := lit "a" }, none⟩], []⟩,
      u.place = .urn 1 ∨ u.part ∈ [.field "ID", .field "norm", .field "kind"] := by
    have e : uses X [.getID 0, .equal 0 0, .rfc 0, .normalize 0, .getSS 1] ⟨[some 0], []⟩ ⟨[⟨{ ID := lit "a" }, none⟩], []⟩ =
      [⟨false, .urn 0, .field "ID"⟩, ⟨false, .urn 0, .field "ID"⟩, ⟨false, .urn 0, .field "norm"⟩, ⟨false, .urn 0, .field "ID"⟩, ⟨false, .urn 0, .field "norm"⟩,
        ⟨false, .urn 0, .field "kind"⟩, ⟨false, .urn 0, .field "ID"⟩, ⟨false, .urn 0, .field "norm"⟩, ⟨false, .urn 1, .field "SS"⟩] := rfl
    rw [e]
    simp
  have hno : ∀ {p q : Part}, p = .field "SS" → q ∈ [Part.field "ID", .field "norm", .field "kind"] → ¬ p.Meets q ∧ ¬ q.Meets p := by
    intro p q hp hq
    simp only [List.mem_cons, List.not_mem_nil, or_false] at hq
    subst hp
    rcases hq with rfl | rfl | rfl <;> exact ⟨by simp [Part.Meets], by simp [Part.Meets]⟩
  obtain ⟨f, g, R', h, h1, ⟨⟨-, h2⟩, -⟩, N, hN⟩ := C73_fields hP hC X [.newURN, .setID 0 (lit "a")] (by simp [Step.Fits]) h0 _ _ ⟨[⟨{ ID := lit "a" }, none⟩], []⟩ rfl
    [(⟨[some 0], []⟩, [.setSS 0 (lit "b"), .getSS 0]), (⟨[some 0], []⟩, [.getID 0, .equal 0 0, .rfc 0, .normalize 0, .getSS 1])]
    (by simp [Regs.addGot]) (by simp [Step.Fits]) (by
      intro i j c d hij hi hj u hu v hv huv hin hm
      match i, j, hij, hi, hj with
      | 0, 1, _, hi, hj =>
          cases hi; cases hj
          rcases huses' v hv with h | h
          · rw [huv, h] at hin; exact absurd hin (by simp [Place.In])
          · exact absurd hm (hno (huses u hu) h).1
      | 1, 0, _, hi, hj =>
          cases hi; cases hj
          rcases huses' u hu with h | h
          · rw [h] at hin; exact absurd hin (by simp [Place.In])
          · exact absurd hm (hno (huses v hv) h).2
      | i + 2, _, _, hi, _ => cases hi
      | 0, j + 2, _, _, hj => cases hj
      | 1, j + 2, _, _, hj => cases hj)
  obtain ⟨⟨a, ha⟩, -⟩ := h2 0 (by decide)
  refine ⟨a, R', h, ?_, N, fun n hn => ?_⟩
  · simpa [valsAll, Step.vals, ha] using h1
  · have hA := hN n hn
    simp only [List.map_cons, List.map_nil, Regs.addr, ha] at hA
    refine ⟨hA.1, fun i hi => ⟨(hA.2 i hi).1, fun sched r hr => ⟨?_, ?_⟩⟩⟩
    · rintro rfl
      obtain ⟨c, hc, hq⟩ := (hA.2 0 hi).2 sched r hr
      cases hc
      obtain ⟨f', g', R', h', hq, -⟩ := hq
      exact ⟨R', h', hq⟩
    · rintro rfl
      obtain ⟨c, hc, hq⟩ := (hA.2 1 hi).2 sched r hr
      cases hc
      obtain ⟨f', g', R', h', hq, -, -, -, ⟨-, hi⟩, -⟩ := hq
      obtain ⟨⟨b, hb⟩, -⟩ := hi 1 (by simp)
      exact ⟨b, R', h', hq.trans (by simp [valsAll, Step.vals, hb, URN.equal]; exact ⟨rfl, rfl⟩)⟩

/-- Among goroutines with pointers to the same URNs and SCIM structs, one makes an assignment `s` to a field, after calls `pre` and before calls `post`.  The
results of another one depend on this field: it would get another result after some assignment `s'` to the same field of the same struct (`M2` is the
memory after it) than before.  There is a race, whatever the value is that `s` assigns, even if it is the value that the field has already. -/
theorem C73_assign {P C : Prog} (hP : IsProgram files P) (hC : IsProgram [clientGo] C) (X : Ext) (ss : List Step) (hf : ∀ s ∈ ss, s.Fits X) (h0 : Heap)
    (gs : List Got) (R : Regs) (M : Mem) (hm : runModel X ss {} {} = .ok (gs, R, M)) (cs : List (List Step)) (hfs : ∀ c ∈ cs, ∀ s ∈ c, s.Fits X)
    (i j : Nat) (pre post rs : List Step) (s s' : Step) (hij : i ≠ j) (hi : cs[i]? = some (pre ++ s :: post)) (hj : cs[j]? = some rs)
    (gp gw before after : List Got) (R1 R2 R3 R4 : Regs) (M1 M2 M3 M4 : Mem)
    (h1 : runModel X pre R M = .ok (gp, R1, M1)) (hs : s.assigns = true) (hs' : s'.assigns = true) (hu : s.uses R1 = s'.uses R)
    (h2 : runModel X [s'] R M = .ok (gw, R2, M2)) (h3 : runModel X rs R M = .ok (before, R3, M3)) (h4 : runModel X rs R M2 = .ok (after, R4, M4))
    (k : Nat) (x y : Got) (hx : before[k]? = some x) (hy : after[k]? = some y) (px : Plain x) (py : Plain y) (hxy : x ≠ y) :
    ∃ vss R' h, Does (fun n => runText P C X n ss {} h0) (vss, R', h) ∧
      ∃ N, ∀ n, N ≤ n → Races h (cs.map fun c => runTextT P C X n c R') := by
  cases program_eq hP
  cases client_eq hC
  have hg := run_good (X := X) ss hf (R := {}) (Sim.empty h0) ⟨by simp, by simp⟩
  rw [hm] at hg
  obtain ⟨U, S, h, hd, r, hR, -, -⟩ := hg
  refine ⟨_, _, h, hd, ?_⟩
  simp only [List.nil_append] at r hR ⊢
  have hfi := hfs _ (List.mem_of_getElem? hi)
  exact assign_races r hR hij hi hj (fun t ht => hfi t (List.mem_append_left _ ht)) (hfs rs (List.mem_of_getElem? hj)) h1 hs hs' hu h2 h3 h4 hx hy px py hxy

/-- One goroutine assigns to `ID` the value that it has already, after a call of `Normalize` and before one of `RFC`; the other one calls `String`. -/
example {P C : Prog} (hP : IsProgram files P) (hC : IsProgram [clientGo] C) (X : Ext) (h0 : Heap) : ∃ vss R' h,
    Does (fun n => runText P C X n [.newURN, .setID 0 (lit "a"), .setSS 0 (lit "B")] {} h0) (vss, R', h) ∧
      ∃ N, ∀ n, N ≤ n → Races h ([[.normalize 0, .setID 0 (lit "a"), .rfc 0], [.stringOf 0]].map fun c => runTextT P C X n c R') :=
  let M : Mem := { urns := [{ fields := { ID := lit "a", SS := lit "B" } }] }
  let M2 : Mem := { urns := [{ fields := { ID := lit "x", SS := lit "B" } }] }
  C73_assign hP hC X _ (by simp [Step.Fits]) h0 _ { urns := [some 0] } M rfl [[.normalize 0, .setID 0 (lit "a"), .rfc 0], [.stringOf 0]] (by simp [Step.Fits])
    0 1 [.normalize 0] [.rfc 0] [.stringOf 0] (.setID 0 (lit "a")) (.setID 0 (lit "x")) (by decide) rfl rfl
    _ _ [.bytes (lit "urn:a:B")] [.bytes (lit "urn:x:B")] { urns := [some 0, some 1] } { urns := [some 0] } { urns := [some 0] } { urns := [some 0] } _ M2 M M2
    rfl rfl rfl rfl rfl rfl rfl 0 (.bytes (lit "urn:a:B")) (.bytes (lit "urn:x:B")) rfl rfl trivial trivial (by decide)

/-- Goroutines race if two of them use a field in any case, as `does` says, and one of them writes to it: whatever the values are, and whether or not the
results depend on them. -/
theorem C73_clash {P C : Prog} (hP : IsProgram files P) (hC : IsProgram [clientGo] C) (X : Ext) (ss : List Step) (hf : ∀ s ∈ ss, s.Fits X) (h0 : Heap)
    (gs : List Got) (R : Regs) (M : Mem) (hm : runModel X ss {} {} = .ok (gs, R, M)) (cs : List (Regs × List Step))
    (hR : ∀ c ∈ cs, (∀ p ∈ c.1.urns, p ∈ R.urns) ∧ ∀ p ∈ c.1.scims, p ∈ R.scims) (hfs : ∀ c ∈ cs, ∀ s ∈ c.2, s.Fits X)
    (hc : Clash (fun c => does X c.2 c.1 M) M cs) :
    ∃ f g R' h, Does (fun n => runText P C X n ss {} h0) (valsAll X f g ss gs, R', h) ∧ SameEnd f g M R h R' ∧
      ∃ N, ∀ n, N ≤ n → Races h (cs.map fun c => runTextT P C X n c.2 (c.1.addr f g)) := by
  cases program_eq hP
  cases client_eq hC
  have hg := run_good (X := X) ss hf (R := {}) (Sim.empty h0) ⟨by simp, by simp⟩
  rw [hm] at hg
  obtain ⟨U, S, h, h1, h2, h3, h4, h5⟩ := hg
  exact ⟨_, _, _, h, h1, h2.sameEnd h3, does_races h2 (fun c hc => h3.sub (hR c hc).1 (hR c hc).2) hfs hc⟩

/-- Two goroutines assign to `SS` and read nothing. -/
example {P C : Prog} (hP : IsProgram files P) (hC : IsProgram [clientGo] C) (X : Ext) (h0 : Heap) : ∃ a R' h,
    Does (fun n => runText P C X n [.newURN] {} h0) ([[.ptr "URN" (some a)]], R', h) ∧
      ∃ N, ∀ n, N ≤ n → Races h [runTextT P C X n [.setSS 0 (lit "b")] ⟨[some a], []⟩, runTextT P C X n [.getID 0, .setSS 0 (lit "b")] ⟨[some a], []⟩] := by
  obtain ⟨f, g, R', h, h1, ⟨⟨-, h2⟩, -⟩, N, hN⟩ := C73_clash hP hC X [.newURN] (by simp [Step.Fits]) h0 _ _ ⟨[{}], []⟩ rfl
    [(⟨[some 0], []⟩, [.setSS 0 (lit "b")]), (⟨[some 0], []⟩, [.getID 0, .setSS 0 (lit "b")])] (by simp [Regs.addGot]) (by simp [Step.Fits])
    ⟨0, 1, _, _, by decide, rfl, rfl, ⟨true, .urn 0, .field "SS"⟩, List.mem_cons_self, ⟨true, .urn 0, .field "SS"⟩, List.mem_cons_of_mem _ List.mem_cons_self,
      rfl, by simp [Place.In], by simp [Part.Meets], .inl rfl⟩
  obtain ⟨⟨a, ha⟩, -⟩ := h2 0 (by decide)
  refine ⟨a, R', h, ?_, N, fun n hn => ?_⟩
  · simpa [valsAll, Step.vals, ha] using h1
  · have hA := hN n hn
    simp only [List.map_cons, List.map_nil, Regs.addr, ha] at hA
    exact hA

/-- If the goroutines use in any case what they may use, they race exactly if two of them use the same field and one of them writes to it. -/
theorem C73_exact {P C : Prog} (hP : IsProgram files P) (hC : IsProgram [clientGo] C) (X : Ext) (ss : List Step) (hf : ∀ s ∈ ss, s.Fits X) (h0 : Heap)
    (gs : List Got) (R : Regs) (M : Mem) (hm : runModel X ss {} {} = .ok (gs, R, M)) (cs : List (Regs × List Step))
    (hR : ∀ c ∈ cs, (∀ p ∈ c.1.urns, p ∈ R.urns) ∧ ∀ p ∈ c.1.scims, p ∈ R.scims) (hfs : ∀ c ∈ cs, ∀ s ∈ c.2, s.Fits X)
    (hd : ∀ c ∈ cs, ∀ u ∈ uses X c.2 c.1 M, u ∈ does X c.2 c.1 M) :
    ∃ f g R' h, Does (fun n => runText P C X n ss {} h0) (valsAll X f g ss gs, R', h) ∧ SameEnd f g M R h R' ∧
      ∃ N, ∀ n, N ≤ n → (Races h (cs.map fun c => runTextT P C X n c.2 (c.1.addr f g)) ↔ Clash (fun c => uses X c.2 c.1 M) M cs) := by
  cases program_eq hP
  cases client_eq hC
  have hg := run_good (X := X) ss hf (R := {}) (Sim.empty h0) ⟨by simp, by simp⟩
  rw [hm] at hg
  obtain ⟨U, S, h, h1, h2, h3, h4, h5⟩ := hg
  have hfit : ∀ c ∈ cs, RegsFit c.1 U S := fun c hc => h3.sub (hR c hc).1 (hR c hc).2
  refine ⟨_, _, _, h, h1, h2.sameEnd h3, ?_⟩
  by_cases hc : Clash (fun c => uses X c.2 c.1 M) M cs
  · obtain ⟨i, j, c, d, hij, hi, hj, u, hu, v, hv, hrest⟩ := id hc
    obtain ⟨N, hN⟩ := does_races h2 hfit hfs ⟨i, j, c, d, hij, hi, hj, u, hd c (List.mem_of_getElem? hi) u hu, v, hd d (List.mem_of_getElem? hj) v hv, hrest⟩
    exact ⟨N, fun n hn => ⟨fun _ => hc, fun _ => hN n hn⟩⟩
  · exact ⟨0, fun n _ => ⟨fun hr => absurd hr (uses_quiet h2 hfit hfs hc n), fun h => absurd h hc⟩⟩

/-- Calls that meet the condition: for example reading and assigning to `ID` and `SS`, `Parse`, `Normalize`, `RFC`. -/
example (X : Ext) (M : Mem) (cs : List (Regs × List Step)) (hs : ∀ c ∈ cs, ∀ s ∈ c.2, s.simple = true) :
    ∀ c ∈ cs, ∀ u ∈ uses X c.2 c.1 M, u ∈ does X c.2 c.1 M :=
  fun c hc u hu => by rw [simple_does _ (hs c hc)]; exact hu

/-- And `Equal` and copies, if no pointer is nil. -/
example (X : Ext) (M : Mem) : ∀ u ∈ uses X [.copyURN 0 1, .equal 0 1] ⟨[some 0, some 1], []⟩ M, u ∈ does X [.copyURN 0 1, .equal 0 1] ⟨[some 0, some 1], []⟩ M := by
  have e : does X [.copyURN 0 1, .equal 0 1] ⟨[some 0, some 1], []⟩ M = uses X [.copyURN 0 1, .equal 0 1] ⟨[some 0, some 1], []⟩ M := by
    rw [does, uses]
    congr 1
    simp only [Step.act, Mem.act]
    cases hx : M.obj (some 1) with
    | ok x => cases hy : M.setObj (some 0) x <;> simp [Regs.urn, hx, hy] <;> rfl
    | _ => simp [Regs.urn, hx]
  rw [e]
  exact fun _ h => h

/-- Goroutines that make calls of `Step.simple` only race exactly if two of them use the same field and one of them assigns to it. -/
theorem C73_simple {P C : Prog} (hP : IsProgram files P) (hC : IsProgram [clientGo] C) (X : Ext) (ss : List Step) (hf : ∀ s ∈ ss, s.Fits X) (h0 : Heap)
    (gs : List Got) (R : Regs) (M : Mem) (hm : runModel X ss {} {} = .ok (gs, R, M)) (cs : List (Regs × List Step))
    (hR : ∀ c ∈ cs, (∀ p ∈ c.1.urns, p ∈ R.urns) ∧ ∀ p ∈ c.1.scims, p ∈ R.scims) (hfs : ∀ c ∈ cs, ∀ s ∈ c.2, s.Fits X)
    (hs : ∀ c ∈ cs, ∀ s ∈ c.2, s.simple = true) :
    ∃ f g R' h, Does (fun n => runText P C X n ss {} h0) (valsAll X f g ss gs, R', h) ∧ SameEnd f g M R h R' ∧
      ∃ N, ∀ n, N ≤ n → (Races h (cs.map fun c => runTextT P C X n c.2 (c.1.addr f g)) ↔ Clash (fun c => uses X c.2 c.1 M) M cs) :=
  C73_exact hP hC X ss hf h0 gs R M hm cs hR hfs fun c hc u hu => by rw [simple_does _ (hs c hc)]; exact hu

/-- Two URNs: one goroutine assigns to `SS` of the first and reads `ID` of the second, the other one the other way round.  They do not race. -/
example {P C : Prog} (hP : IsProgram files P) (hC : IsProgram [clientGo] C) (X : Ext) (h0 : Heap) : ∃ a b R' h,
    Does (fun n => runText P C X n [.newURN, .newURN] {} h0) ([[.ptr "URN" (some a)], [.ptr "URN" (some b)]], R', h) ∧
      ∃ N, ∀ n, N ≤ n → ¬ Races h [runTextT P C X n [.setSS 0 (lit "b"), .getID 1] ⟨[some a, some b], []⟩, runTextT P C X n [.setSS 1 (lit "b"), .getID 0] ⟨[some a, some b], []⟩] := by
  obtain ⟨f, g, R', h, h1, ⟨⟨-, h2⟩, -⟩, N, hN⟩ := C73_simple hP hC X [.newURN, .newURN] (by simp [Step.Fits]) h0 _ _ ⟨[{}, {}], []⟩ rfl
    [(⟨[some 0, some 1], []⟩, [.setSS 0 (lit "b"), .getID 1]), (⟨[some 0, some 1], []⟩, [.setSS 1 (lit "b"), .getID 0])] (by simp [Regs.addGot]) (by simp [Step.Fits])
    (by simp [Step.simple])
  obtain ⟨⟨a, ha⟩, -⟩ := h2 0 (by decide)
  obtain ⟨⟨b, hb⟩, -⟩ := h2 1 (by decide)
  refine ⟨a, b, R', h, ?_, N, fun n hn => ?_⟩
  · simpa [valsAll, Step.vals, ha, hb] using h1
  · have hA := hN n hn
    simp only [List.map_cons, List.map_nil, Regs.addr, ha, hb] at hA
    rw [hA]
    have e1 : uses X [.setSS 0 (lit "b"), .getID 1] ⟨[some 0, some 1], []⟩ ⟨[{}, {}], []⟩ = [⟨true, .urn 0, .field "SS"⟩, ⟨false, .urn 1, .field "ID"⟩] := rfl
    have e2 : uses X [.setSS 1 (lit "b"), .getID 0] ⟨[some 0, some 1], []⟩ ⟨[{}, {}], []⟩ = [⟨true, .urn 1, .field "SS"⟩, ⟨false, .urn 0, .field "ID"⟩] := rfl
    rintro ⟨i, j, c, d, hij, hi, hj, u, hu, v, hv, huv, -, hm, -⟩
    match i, j, hij, hi, hj with
    | 0, 1, _, hi, hj =>
        cases hi; cases hj
        simp only [e1, e2, List.mem_cons, List.not_mem_nil, or_false] at hu hv
        rcases hu with rfl | rfl <;> rcases hv with rfl | rfl <;> simp [Part.Meets] at huv hm
    | 1, 0, _, hi, hj =>
        cases hi; cases hj
        simp only [e1, e2, List.mem_cons, List.not_mem_nil, or_false] at hu hv
        rcases hu with rfl | rfl <;> rcases hv with rfl | rfl <;> simp [Part.Meets] at huv hm
    | i + 2, _, _, hi, _ => cases hi
    | 0, j + 2, _, _, hj => cases hj
    | 1, j + 2, _, _, hj => cases hj

end Urn.GoLang
