import Verif.GoClientRun
/-!
# Clients of the text of the package

C67 of `properties.jsonl`: programs that call the package.  `P` is the program in the files of /repo (C63: there is exactly
one), `C` the client functions of `GoClient.lean`, and both are run by the interpreter of `GoSem.lean`, where an `int` has 32 or 64
bits.  `s.Fits X`: the length of what is parsed is an `int`.
-/
set_option autoImplicit false
namespace Urn.GoLang
open Urn.Heap

/-- The client functions have a meaning. -/
theorem C67_client_program : ∃ C, IsProgram [clientGo] C ∧ ∀ D, IsProgram [clientGo] D → D = C :=
  ⟨cprog, isProgram_client, fun _ h => client_eq h⟩

/-- Any sequence of calls returns what the model says; each pointer points to the object that the model says (`f` and `g` are
one-to-one), with the contents that the model says; and other memory is as it was. -/
theorem C67_calls {P C : Prog} (hP : IsProgram files P) (hC : IsProgram [clientGo] C) (X : Ext) (ss : List Step) (hf : ∀ s ∈ ss, s.Fits X) (h : Heap)
    (gs : List Got) (R : Regs) (M : Mem) (hm : runModel X ss {} {} = .ok (gs, R, M)) :
    ∃ f g R' h', Does (fun n => runText P C X n ss {} h) (valsAll X f g ss gs, R', h') ∧ SameEnd f g M R h' R' ∧
      gs.length = ss.length ∧ ∀ c, c < h.length → h'[c]? = h[c]? := by
  cases program_eq hP
  cases client_eq hC
  have hg := run_good (X := X) ss hf (R := {}) (Sim.empty h) ⟨by simp, by simp⟩
  rw [hm] at hg
  obtain ⟨U, S, h', h1, h2, h3, h4, h5⟩ := hg
  exact ⟨_, _, _, h', h1, h2.sameEnd h3, h4, fun c hc => h5 c hc (by simp) (by simp)⟩

/-- A sequence of calls that panics in the model panics in the text. -/
theorem C67_panics {P C : Prog} (hP : IsProgram files P) (hC : IsProgram [clientGo] C) (X : Ext) (ss : List Step) (hf : ∀ s ∈ ss, s.Fits X) (h : Heap) (p : Panic)
    (hm : runModel X ss {} {} = .panic p) : Panics (fun n => runText P C X n ss {} h) p := by
  cases program_eq hP
  cases client_eq hC
  have hg := run_good (X := X) ss hf (R := {}) (Sim.empty h) ⟨by simp, by simp⟩
  rw [hm] at hg
  exact hg

/-- `String` of a pointer that is nil. -/
example {P C : Prog} (hP : IsProgram files P) (hC : IsProgram [clientGo] C) (X : Ext) (h : Heap) :
    Panics (fun n => runText P C X n [.stringOf 0] {} h) .nilDeref := C67_panics hP hC X _ (by simp [Step.Fits]) h _ rfl

/-- There is no third case: every sequence of calls returns, or follows a nil pointer. -/
theorem C67_returns {P C : Prog} (hP : IsProgram files P) (hC : IsProgram [clientGo] C) (X : Ext) (ss : List Step) (hf : ∀ s ∈ ss, s.Fits X) (h : Heap) :
    (∃ gs R M, runModel X ss {} {} = .ok (gs, R, M) ∧ ∃ r, Does (fun n => runText P C X n ss {} h) r) ∨
    (runModel X ss {} {} = .panic .nilDeref ∧ Panics (fun n => runText P C X n ss {} h) .nilDeref) := by
  rcases run_nil (X := X) ss hf (R := {}) (Sim.empty h) ⟨by simp, by simp⟩ with ⟨⟨gs, R, M⟩, hm⟩ | hm
  · obtain ⟨f, g, R', h', h1, _⟩ := C67_calls hP hC X ss hf h gs R M hm
    exact .inl ⟨gs, R, M, hm, _, h1⟩
  · exact .inr ⟨hm, C67_panics hP hC X ss hf h _ hm⟩

/-- After calls that have returned, one more call panics exactly if it is one of those with a nil pointer in the list of C58. -/
theorem C67_nil {P C : Prog} (hP : IsProgram files P) (hC : IsProgram [clientGo] C) (X : Ext) (ss : List Step) (s : Step)
    (hf : ∀ t ∈ ss ++ [s], t.Fits X) (h : Heap)
    (gs : List Got) (R : Regs) (M : Mem) (hm : runModel X ss {} {} = .ok (gs, R, M)) :
    (NilPanics X.json (s.act R) → Panics (fun n => runText P C X n (ss ++ [s]) {} h) .nilDeref) ∧
    (¬ NilPanics X.json (s.act R) → ∃ r, Does (fun n => runText P C X n (ss ++ [s]) {} h) r) := by
  have hg := run_good (X := X) ss (fun t ht => hf t (List.mem_append_left _ ht)) (R := {}) (Sim.empty h) ⟨by simp, by simp⟩
  rw [hm] at hg
  obtain ⟨U, S, h', h1, h2, h3, h4, h5⟩ := hg
  have hv := C58_nil X.uni X.json M _ (valid_step h2 h3 s)
  have hr := runModel_snoc (X := X) ss s {} {}
  rw [hm] at hr
  constructor
  · intro hn
    refine C67_panics hP hC X _ hf h _ (hr.trans ?_)
    simp only [Run.ok_bind, hv.1 hn]
    rfl
  · intro hn
    obtain ⟨M1, g, he⟩ := hv.2 hn
    obtain ⟨f, g, R', h', h1, _⟩ := C67_calls hP hC X (ss ++ [s]) hf h _ _ _ (hr.trans (by simp only [Run.ok_bind, he]; rfl))
    exact ⟨_, h1⟩

example {P C : Prog} (hP : IsProgram files P) (hC : IsProgram [clientGo] C) (X : Ext) (h : Heap) :
    (∃ r, Does (fun n => runText P C X n [.newURN, .stringOf 0] {} h) r) ∧ Panics (fun n => runText P C X n [.newURN, .stringOf 1] {} h) .nilDeref :=
  ⟨(C67_nil hP hC X [.newURN] (.stringOf 0) (by simp [Step.Fits]) h _ _ _ rfl).2 (by simp only [Step.act, NilPanics]; decide),
    (C67_nil hP hC X [.newURN] (.stringOf 1) (by simp [Step.Fits]) h _ _ _ rfl).1 rfl⟩

/-- What a client sees does not depend on where things are: with any two memories at the start, the results are the same but
for addresses, and these are equal, or nil, in one run exactly if they are in the other. -/
theorem C67_addresses {P C : Prog} (hP : IsProgram files P) (hC : IsProgram [clientGo] C) (X : Ext) (ss : List Step) (hf : ∀ s ∈ ss, s.Fits X) (h k : Heap)
    (vss : List (List Val)) (R : Regs) (h' : Heap) (hd : Does (fun n => runText P C X n ss {} h) (vss, R, h')) :
    ∃ wss Q k' gs f g f' g', Does (fun n => runText P C X n ss {} k) (wss, Q, k') ∧ vss = valsAll X f g ss gs ∧ wss = valsAll X f' g' ss gs ∧
      ∃ T M, SameEnd f g M T h' R ∧ SameEnd f' g' M T k' Q := by
  rcases C67_returns hP hC X ss hf h with ⟨gs, T, M, hm, -⟩ | ⟨-, N, hN⟩
  · obtain ⟨f, g, R1, h1, d1, e1, _⟩ := C67_calls hP hC X ss hf h gs T M hm
    obtain ⟨f', g', Q, k', d2, e2, _⟩ := C67_calls hP hC X ss hf k gs T M hm
    cases hd.unique d1
    exact ⟨_, Q, k', gs, f, g, f', g', d2, rfl, rfl, T, M, e1, e2⟩
  · obtain ⟨N', hN'⟩ := hd
    have := (hN (N + N') (by omega)).symm.trans (hN' (N + N') (by omega))
    cases this

/-! ## A concrete client -/

/-- Parse a URN of SCIM, copy the struct, write to the name through the copy: the original sees it in `SCIM()` and not in
`String()`. -/
example {P C : Prog} (hP : IsProgram files P) (hC : IsProgram [clientGo] C) (X : Ext) (h : Heap) : ∃ a b c R' h',
    a ≠ b ∧ Does (fun n => runText P C X n [.parse (lit "urn:ietf:params:scim:api:a") [RFC7643Only], .newURN, .copyURN 1 0, .scimOf 1,
        .setName 0 (lit "b"), .scimOf 0, .scimFields 1, .stringOf 0] {} h)
      ([[.ptr "URN" (some a), .bool true], [.ptr "URN" (some b)], [], [.ptr "SCIM" (some c)], [], [.ptr "SCIM" (some c)],
        [.int "Type" SchemaType.API, .str (lit "b"), .str []], [.str (lit "urn:ietf:params:scim:api:a")]], R', h') := by
  have hp : Urn.parse (lit "urn:ietf:params:scim:api:a") [withParsingMode RFC7643Only] = _ := parse_mode _ _
  have hm : ∃ R M, runModel X [.parse (lit "urn:ietf:params:scim:api:a") [RFC7643Only], .newURN, .copyURN 1 0, .scimOf 1,
      .setName 0 (lit "b"), .scimOf 0, .scimFields 1, .stringOf 0] {} {} =
      .ok ([.urn (some 0) true, .urn (some 1) true, .unit, .scim (some 0), .unit, .scim (some 0), .fields SchemaType.API (lit "b") [],
        .bytes (lit "urn:ietf:params:scim:api:a")], R, M) ∧ M.urns.length = 2 ∧ M.scims.length = 1 := by
    simp only [runModel, Step.act, List.map_cons, List.map_nil, Mem.act, hp]
    exact ⟨_, _, rfl, rfl, rfl⟩
  obtain ⟨R, M, hm, hl, hl'⟩ := hm
  obtain ⟨f, g, R', h', h1, ⟨⟨-, h2⟩, ⟨-, h3⟩, -⟩, -, -⟩ := C67_calls hP hC X _ (by simp [Step.Fits, X.fits_of (s := lit "urn:ietf:params:scim:api:a") (by decide)]) h _ _ _ hm
  obtain ⟨⟨a, ha⟩, hab⟩ := h2 0 (by omega)
  obtain ⟨⟨b, hb⟩, -⟩ := h2 1 (by omega)
  obtain ⟨⟨c, hc⟩, -⟩ := h3 0 (by omega)
  refine ⟨a, b, c, R', h', ?_, ?_⟩
  · rintro rfl
    exact absurd (hab 1 (by omega) (ha.trans hb.symm)) (by decide)
  · simpa [valsAll, Step.vals, ha, hb, hc] using h1

end Urn.GoLang
