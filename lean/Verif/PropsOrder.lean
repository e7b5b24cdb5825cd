import Verif.GoOrder
import Verif.PropsRace
/-!
# Goroutines whose results depend on their order race

More of C73 of `properties.jsonl`.  `PropsRace.lean` has the rest, with the race of an assignment to `ID`.
-/
set_option autoImplicit false
namespace Urn.GoLang
open Urn.Heap (Mem Got)

/-- Among goroutines with pointers to the same URNs and SCIM structs, one makes calls (or assignments, or copies) that make no new objects, and another one
would get another result after these calls than before: there is a race.  `M1` is the memory after the calls of the first one. -/
theorem C73_order {P C : Prog} (hP : IsProgram files P) (hC : IsProgram [clientGo] C) (X : Ext) (ss : List Step) (hf : ∀ s ∈ ss, s.Fits X) (h0 : Heap)
    (gs : List Got) (R : Regs) (M : Mem) (hm : runModel X ss {} {} = .ok (gs, R, M)) (cs : List (List Step)) (hfs : ∀ c ∈ cs, ∀ s ∈ c, s.Fits X)
    (i j : Nat) (ws rs : List Step) (hij : i ≠ j) (hi : cs[i]? = some ws) (hj : cs[j]? = some rs)
    (gw before after : List Got) (R1 R2 R3 : Regs) (M1 M2 M3 : Mem)
    (h1 : runModel X ws R M = .ok (gw, R1, M1)) (hu : M1.urns.length = M.urns.length) (hs : M1.scims.length = M.scims.length)
    (h2 : runModel X rs R M = .ok (before, R2, M2)) (h3 : runModel X rs R M1 = .ok (after, R3, M3))
    (k : Nat) (x y : Got) (hx : before[k]? = some x) (hy : after[k]? = some y) (px : Plain x) (py : Plain y) (hxy : x ≠ y) :
    ∃ vss R' h, Does (fun n => runText P C X n ss {} h0) (vss, R', h) ∧
      ∃ N, ∀ n, N ≤ n → Races h (cs.map fun c => runTextT P C X n c R') := by
  cases program_eq hP
  cases client_eq hC
  have hg := run_good (X := X) ss hf (R := {}) (Sim.empty h0) ⟨by simp, by simp⟩
  rw [hm] at hg
  obtain ⟨U, S, h, hd, r, hR, -, -⟩ := hg
  refine ⟨_, _, h, hd, ?_⟩
  simp only [List.nil_append] at r hR ⊢
  exact order_races r hR hij hi hj (hfs ws (List.mem_of_getElem? hi)) (hfs rs (List.mem_of_getElem? hj)) h1 hu hs h2 h3 hx hy px py hxy

/-- An assignment to `SS` and `String`, while a third goroutine asks for the `ID`. -/
example {P C : Prog} (hP : IsProgram files P) (hC : IsProgram [clientGo] C) (X : Ext) (h0 : Heap) : ∃ vss R' h,
    Does (fun n => runText P C X n [.newURN, .setID 0 (lit "a"), .setSS 0 (lit "B")] {} h0) (vss, R', h) ∧
      ∃ N, ∀ n, N ≤ n → Races h ([[.getID 0], [.setSS 0 (lit "x")], [.getID 0, .stringOf 0]].map fun c => runTextT P C X n c R') :=
  let M : Mem := { urns := [{ fields := { ID := lit "a", SS := lit "B" } }] }
  let M1 : Mem := { urns := [{ fields := { ID := lit "a", SS := lit "x" } }] }
  C73_order hP hC X _ (by simp [Step.Fits]) h0 _ { urns := [some 0] } M rfl [[.getID 0], [.setSS 0 (lit "x")], [.getID 0, .stringOf 0]] (by simp [Step.Fits])
    1 2 [.setSS 0 (lit "x")] [.getID 0, .stringOf 0] (by decide) rfl rfl _ [.bytes (lit "a"), .bytes (lit "urn:a:B")] [.bytes (lit "a"), .bytes (lit "urn:a:x")]
    { urns := [some 0] } { urns := [some 0] } { urns := [some 0] } M1 M M1 rfl rfl rfl rfl rfl
    1 (.bytes (lit "urn:a:B")) (.bytes (lit "urn:a:x")) rfl rfl trivial trivial (by decide)

/-- Copying a URN and asking for the text of the one that is overwritten. -/
example {P C : Prog} (hP : IsProgram files P) (hC : IsProgram [clientGo] C) (X : Ext) (h0 : Heap) : ∃ vss R' h,
    Does (fun n => runText P C X n [.newURN, .setID 0 (lit "a"), .setSS 0 (lit "B"), .newURN] {} h0) (vss, R', h) ∧
      ∃ N, ∀ n, N ≤ n → Races h ([[.copyURN 0 1], [.stringOf 0]].map fun c => runTextT P C X n c R') :=
  let M : Mem := { urns := [{ fields := { ID := lit "a", SS := lit "B" } }, {}] }
  let M1 : Mem := { urns := [{}, {}] }
  C73_order hP hC X _ (by simp [Step.Fits]) h0 _ { urns := [some 0, some 1] } M rfl [[.copyURN 0 1], [.stringOf 0]] (by simp [Step.Fits])
    0 1 [.copyURN 0 1] [.stringOf 0] (by decide) rfl rfl _ [.bytes (lit "urn:a:B")] [.bytes []]
    { urns := [some 0, some 1] } { urns := [some 0, some 1] } { urns := [some 0, some 1] } M1 M M1 rfl rfl rfl rfl rfl
    0 (.bytes (lit "urn:a:B")) (.bytes []) rfl rfl trivial trivial (by decide)

/-- Assigning to a field of a SCIM struct and reading the struct. -/
example {P C : Prog} (hP : IsProgram files P) (hC : IsProgram [clientGo] C) (X : Ext) (h0 : Heap) : ∃ vss R' h,
    Does (fun n => runText P C X n [.newSCIM] {} h0) (vss, R', h) ∧
      ∃ N, ∀ n, N ≤ n → Races h ([[.setName 0 (lit "x")], [.scimFields 0]].map fun c => runTextT P C X n c R') :=
  let M : Mem := { scims := [{}] }
  let M1 : Mem := { scims := [{ Name := lit "x" }] }
  C73_order hP hC X _ (by simp [Step.Fits]) h0 _ { scims := [some 0] } M rfl [[.setName 0 (lit "x")], [.scimFields 0]] (by simp [Step.Fits])
    0 1 [.setName 0 (lit "x")] [.scimFields 0] (by decide) rfl rfl _ [.fields 0 [] []] [.fields 0 (lit "x") []]
    { scims := [some 0] } { scims := [some 0] } { scims := [some 0] } M1 M M1 rfl rfl rfl rfl rfl
    0 (.fields 0 [] []) (.fields 0 (lit "x") []) rfl rfl trivial trivial (by decide)

end Urn.GoLang
