import Verif.GoSpec
/-!
# Lemmas for the theorems about the text of the package
-/
set_option autoImplicit false
set_option linter.unusedSimpArgs false
namespace Urn.GoLang

theorem isProgram_prog : IsProgram files prog := by
  have h : files.mapM parseFile = some [kindAst, parsingModeAst, optionsAst, schemaTypeAst, scimAst, urnAst, urn8141Ast, machineAst] := by
    simp only [files, List.mapM_cons, List.mapM_nil, kind_parse, parsingMode_parse, options_parse, schemaType_parse, scim_parse, urn_parse,
      urn8141_parse, machine_parse]
    rfl
  refine ⟨_, h, ?_⟩
  have := prog_eq
  simp only [allAst, List.append_assoc] at this
  simpa only [List.flatten_cons, List.flatten_nil, List.append_nil] using this

theorem program_eq {P : Prog} (h : IsProgram files P) : P = prog := by
  obtain ⟨ds, h1, h2⟩ := h
  obtain ⟨ds', h1', h2'⟩ := isProgram_prog
  rw [h1] at h1'
  cases h1'
  rw [h2] at h2'
  cases h2'
  rfl

theorem start_lt {n : Nat} (h : Start n) : n < 194 := by
  rcases h with h | h | h | h <;> omega

section
variable {X : Ext} {h : Heap} {a : Nat}

theorem does_fn {f : String} {g : Fn} {vs : List Val} {N : Nat} {r : List Val × Heap} (hg : findFn prog none f = some g)
    (he : callFn prog (callN prog X N) g none vs false h = .ok r) : Does (fun n => runFn prog X n f vs false h) r :=
  Does.of (runFn_mono _ _ _ _ _ _) (N := N) (by simp only [runFn, hg, Res.some!_some, Res.ok_bind, he])

theorem does_method {t f : String} {g : Fn} {vs : List Val} {N : Nat} {r : List Val × Heap} {p : Option Nat}
    (hg : findFn prog (some (.ptr (.name t))) f = some g)
    (he : callFn prog (callN prog X N) g (some (.ptr t p)) vs false h = .ok r) : Does (fun n => runMethod prog X n (.ptr t p) f vs h) r :=
  Does.of (runMethod_mono _ _ _ _ _ _) (N := N) (by simp only [runMethod, method, hg, Res.ok_bind, he])

theorem does_options (xs : List ParsingMode) : Does (fun n => makeOptions prog X n xs h) (xs.map optVal, h) := by
  induction xs with
  | nil => exact Does.pure
  | cons x xs ih =>
      have h1 : Does (fun n => runFn prog X n "WithParsingMode" [.int "ParsingMode" x] false h) ([optVal x], h) :=
        does_fn (N := 1) find_option option_call
      have := Does.bind (g := fun n (r : List Val × Heap) => one r.1 >>= fun v => makeOptions prog X n xs r.2 >>= fun y => .ok (v :: y.1, y.2)) h1
        (b := ((x :: xs).map optVal, h))
        (Does.bind (f := fun n => .ok (optVal x)) (g := fun n v => makeOptions prog X n xs h >>= fun y => .ok (v :: y.1, y.2)) Does.pure
          (Does.bind (g := fun n (y : List Val × Heap) => .ok (optVal x :: y.1, y.2)) ih Does.pure))
      exact this

theorem spread_new {c : Call} {vs : List Val} : callFn prog c newMachineFn none vs false h = callFn prog c newMachineFn none [.list vs] true h := by
  simp [newMachineFn, callFn, bindParams]

theorem does_new (xs : List ParsingMode) : ∃ m, newMachine (xs.map withParsingMode) = .ok m ∧
    Does (fun n => callNew prog X n xs h) ([.ptr "machine" (some h.length)], h ++ [.obj (machVal (Buf.nil.val 0) m)]) := by
  obtain ⟨m, h1, -, h2⟩ := newMachine_call (X := X) (n := 0) (h := h) xs
  refine ⟨m, h1, ?_⟩
  rw [← spread_new] at h2
  exact Does.bind (g := fun n (r : List Val × Heap) => runFn prog X n "NewMachine" r.1 false r.2) (does_options xs) (does_fn find_newMachine h2)

end

/-- The memory with the same contents of an array. -/
theorem has_same {h h' : Heap} {b : Buf} {d : Bytes} (hb : b.has h d) (hb' : b.has h' d) (hk : ∀ a, a < h.length → b.away a → h'[a]? = h[a]?) :
    ∀ a, a < h.length → h'[a]? = h[a]? := by
  intro a ha
  cases b with
  | nil => exact hk a ha trivial
  | part c pre post cap =>
      by_cases hc : a = c
      · subst hc
        rw [hb.1, hb'.1]
      · exact hk a ha hc

/-- A URN is still there in a memory that is the same but for the machine. -/
theorem UrnPtr.except {h h' : Heap} {am : Nat} {p : Option Nat} {u : Option URN} (r : UrnPtr h p u)
    (hm : ∃ d m, h[am]? = some (.obj (machVal d m)))
    (hk : ∀ c, c < h.length → c ≠ am → h'[c]? = h[c]?) : UrnPtr h' p u := by
  cases u with
  | none => exact r
  | some u =>
      obtain ⟨d, m, hm⟩ := hm
      obtain ⟨a, v, ha, hv, sp, tl, h1, h2, h3⟩ := r
      subst ha h1
      have ne1 : a ≠ am := by
        rintro rfl
        rw [hm] at hv
        simp [machVal, urnValW] at hv
      refine ⟨a, _, rfl, by rw [hk _ (List.getElem?_eq_some_iff.1 hv).1 ne1]; exact hv, sp, tl, rfl, h2, ?_⟩
      unfold ScimAt at h3 ⊢
      split
      · rename_i hs; rw [hs] at h3; exact h3
      · rename_i hs
        rw [hs] at h3
        obtain ⟨c, hc, hd⟩ := h3
        have ne2 : c ≠ am := by
          rintro rfl
          rw [hm] at hd
          simp [machVal, scimVal] at hd
        exact ⟨c, hc, by rw [hk _ (List.getElem?_eq_some_iff.1 hd).1 ne2]; exact hd⟩

end Urn.GoLang
