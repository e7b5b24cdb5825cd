import Verif.RlSpec
import Verif.PropsText
import Verif.PropsRagel
/-!
# C68: the text of the grammar

machine.go.rl, read as Ragel and Go, says what the model of the grammar says (`Grammar.lean`, of which C55 shows that
machine.go does it), its actions do what those of the model do, and the rest of it is the rest of machine.go.
-/
set_option autoImplicit false
set_option maxRecDepth 10000000
namespace Urn.RlLang
open GoLang (Prog Ext Heap Val Decl Stmts IsProgram files Does Locs Rep envOf sigOf execs callN get Buf callParse UrnPtr)
open Grammar (Inst)
open Tables (Act)

/-- The file has a meaning. -/
theorem C68_file : ∃ ps ss, IsGrammar rlFile ps ss := ⟨_, _, isGrammar⟩

/-- The expressions of the file, with names replaced by what they stand for, are those of the model. -/
theorem C68_grammar {ps : List Part} {ss : List RStmt} (h : IsGrammar rlFile ps ss) :
    (∀ x, x ∈ insts ss ↔ ∃ i, x = instName i) ∧
    ∀ i : Inst, ∃ r, StandsFor ss (.name (instName i)) r ∧ i.exp = (Ragel.number r 0 0).1 := by
  obtain ⟨rfl, rfl⟩ := grammar_eq h
  constructor
  · rw [rl_insts]
    intro x
    constructor
    · intro hx
      simp only [List.mem_cons, List.not_mem_nil, or_false] at hx
      rcases hx with rfl | rfl | rfl | rfl
      · exact ⟨.scimOnly, rfl⟩
      · exact ⟨.rfc8141Only, rfl⟩
      · exact ⟨.fail, rfl⟩
      · exact ⟨.main, rfl⟩
    · rintro ⟨i, rfl⟩
      cases i <;> simp [instName]
  · intro i
    cases i
    · exact ⟨_, .of rl_main, rfl⟩
    · exact ⟨_, .of rl_scim, rfl⟩
    · exact ⟨_, .of rl_8141, rfl⟩
    · exact ⟨_, .of rl_fail, rfl⟩

/-! The reading of two operators: the difference of two sets of characters is the set of the characters in the difference, and
code for errors in states that are not final makes no difference where all states are final. -/

theorem C68_difference (a b : Ragel.Ranges) :
    ∃ r, diff (.cls a) (.cls b) = .cls r ∧ ∀ c, Ragel.mem c r = (Ragel.mem c a && !Ragel.mem c b) := by
  refine ⟨_, rfl, fun c => ?_⟩
  rw [mem_toRanges, natMem_cutAll, natMem_ofRanges, natMem_ofRanges]
  refine cutAll_lt _ _ fun r hr => ?_
  obtain ⟨q, -, rfl⟩ := List.mem_map.1 hr
  exact ⟨q.1.toNat_lt, q.2.toNat_lt⟩

theorem C68_no_error (r : Ragel.Ranges) (n : Nat) (x : Act) (w : Ragel.When) (s : Option Ragel.Place) (c : UInt8) :
    Ragel.stateActs w (.act .errNotFinal n x (.star (.cls r))) s = Ragel.stateActs w (.star (.cls r)) s ∧
    Ragel.edges (.act .errNotFinal n x (.star (.cls r))) s c = Ragel.edges (.star (.cls r)) s c ∧
    Ragel.fin (.act .errNotFinal n x (.star (.cls r))) s = Ragel.fin (.star (.cls r)) s := by
  cases s <;> cases w <;> refine ⟨?_, ?_, ?_⟩ <;> simp [Ragel.stateActs, Ragel.edges, Ragel.fin, Ragel.Embed.applies]

/-- Each action of the file: its code, as Ragel copies it, does in the memory of the interpreter what the action of the model
does (`Rep`: the memory has this machine and this output; `ro`: the input must not be written to).  Sums and differences have the size of an `int`. -/
theorem C68_actions {P : Prog} (hP : IsProgram files P) {ps : List Part} {ss : List RStmt} (h : IsGrammar rlFile ps ss) (x : String)
    (code : List (List Nat)) (hx : RStmt.action x code ∈ ss) :
    ∃ a b, actOf x actNames = some a ∧ actionStmts (enOf P) code = some b ∧
      ∀ (X : Ext) (n : Nat) (h0 k : Heap) (L : Locs) (m m' : Machine) (o o' : URN) (fl : Flow),
        Rep h0 k L m o → L.ro = false → execActBits X.bits a m o = .ok (fl, m', o') →
        ∃ k', execs P X (callN P X (n + 1)) n b ⟨envOf L, k⟩ = .ok (sigOf fl, ⟨envOf L, k'⟩) ∧ Rep h0 k' L m' o' := by
  obtain ⟨rfl, rfl⟩ := grammar_eq h
  cases GoLang.program_eq hP
  rw [enOf_prog]
  have hd : (actNames.map Prod.fst).Nodup := by decide +kernel
  have h1 : x ∈ actNames.map Prod.fst := by
    rw [← rl_names]
    exact List.mem_filterMap.2 ⟨_, hx, rfl⟩
  have h2 := actionOf_mem hx (by rw [rl_names]; exact hd)
  obtain ⟨⟨y, a⟩, hy, rfl⟩ := List.mem_map.1 h1
  obtain ⟨i, hi, hi'⟩ := List.getElem_of_mem hy
  have h3 := congrArg (fun l => l[i]?) rl_actions
  simp only [List.getElem?_map, List.getElem?_eq_getElem hi, hi', Option.map_some, h2, Option.bind_some, Option.some.injEq] at h3
  refine ⟨a, _, ?_, h3, ?_⟩
  · clear h2 h3 hx h1 hi' hi
    have key : ∀ (l : List (String × Act)), (l.map Prod.fst).Nodup → (y, a) ∈ l → actOf y l = some a := by
      intro l
      induction l with
      | nil => intro _ h; cases h
      | cons z l ih =>
        intro hn hm
        simp only [List.map_cons, List.nodup_cons] at hn
        rcases List.mem_cons.1 hm with rfl | hm'
        · simp [actOf]
        · have : z.1 ≠ y := by
            intro e
            exact hn.1 (e ▸ List.mem_map.2 ⟨_, hm', rfl⟩)
          obtain ⟨z1, z2⟩ := z
          simp only [actOf, this, if_false]
          exact ih hn.2 hm'
    exact key actNames hd hy
  · intro X n h0 k L m m' o o' fl hr hL he
    exact GoLang.act_sim (X := X) (c := n) (fuel := n) a k m o fl m' o' hr (fun e => by rw [hL] at e; cases e) he

/-- Every action that the grammar embeds is one of the model, and the actions of the file are these. -/
theorem C68_action_names {ps : List Part} {ss : List RStmt} (h : IsGrammar rlFile ps ss) :
    ss.filterMap actionName = actNames.map Prod.fst := by
  obtain ⟨rfl, rfl⟩ := grammar_eq h
  exact rl_names

/-- The rest of the file is the rest of machine.go: the Go code outside of the grammar, after snake2camel, has the declarations
of machine.go, but for the tables and constants that Ragel writes, and the block that Ragel writes in `Parse`. -/
theorem C68_rest {ps : List Part} {ss : List RStmt} (h : IsGrammar rlFile ps ss) :
    ∃ (t : Bytes) (errors data rest : List Decl) (block : Stmts),
      Tools.snake2camel 100 (goText ps) = .ok t ∧
      GoLang.parseCodes (linesOf t) = some (errors ++ rest) ∧
      GoLang.parseFile GoSource.machineGo.flatten = some (errors ++ data ++ rest.map (fillDecl block)) ∧
      data.map valName = [some "_toStateActions", some "_eofActions", some "start", some "firstFinal", some "enScimOnly",
        some "enRfc8141Only", some "enFail", some "enMain"] := by
  obtain ⟨rfl, rfl⟩ := grammar_eq h
  refine ⟨camelText, rlAst.take 17, (GoLang.machineAst.drop 17).take 8, rlAst.drop 17, GoLang.parseBlock, camel_done, ?_, ?_, ?_⟩
  · rw [List.take_append_drop]; exact rl_go
  · rw [← rl_machine]; exact GoLang.machine_parse
  · kernel_rfl

/-- The function `Parse` in the text of the package does what the grammar says, for each mode: `Grammar.parse` runs the
expressions of `C68_grammar` with the actions of `C68_actions`. -/
theorem C68_parse {P : Prog} (hP : IsProgram files P) (X : Ext) (h : Heap) (b : Buf) (s : Bytes) (hb : b.has h s) (hf : X.Fits s)
    (x : ParsingMode) (hx : KnownMode x) :
    ∃ u e p h', Grammar.parse (Grammar.instOf x) x s = .ok (u, e, s) ∧
      Does (fun n => callParse P X n (b.val s.length) [x] h) ([.ptr "URN" p, .bool e.isNone], h') ∧
      UrnPtr h' p (if e = none then u else none) ∧ ∀ c, c < h.length → h'[c]? = h[c]? := by
  obtain ⟨r, p, h', h1, h2, h3, -, h4⟩ := GoLang.C64_parse hP X h b s hb hf [x]
  have h5 := C55_parse x hx s
  have h6 := C03_buffer_restored _ _ _ h1
  rw [show [x].map withParsingMode = [withParsingMode x] from rfl, h5] at h1
  cases hg : Grammar.parse (Grammar.instOf x) x s with
  | ok y =>
    obtain ⟨u, e, buf⟩ := y
    rw [hg] at h1
    cases e with
    | none =>
      cases h1
      dsimp only at h6
      subst h6
      exact ⟨u, none, p, h', rfl, h2, h3, h4⟩
    | some e =>
      cases h1
      dsimp only at h6
      subst h6
      exact ⟨u, some e, p, h', rfl, h2, h3, h4⟩
  | panic q => rw [hg] at h1; cases h1
  | diverge => rw [hg] at h1; cases h1

/-! A case: the texts are a program and a grammar, one of its actions is `mark`, and `pre` stands for the expression of the model. -/

example : ∃ P ps ss, IsProgram files P ∧ IsGrammar rlFile ps ss ∧ (∃ code, RStmt.action "mark" code ∈ ss) ∧
    "scim_only" ∈ insts ss ∧ StandsFor ss (.name "pre") Grammar.pre := by
  refine ⟨_, _, _, GoLang.isProgram_prog, isGrammar, mark_mem, ?_, .of (n := 100) ?_⟩
  · rw [rl_insts]; decide
  · kernel_rfl


end Urn.RlLang
