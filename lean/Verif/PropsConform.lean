import Verif.EquivAux
import Verif.PropsEnd
/-!
# From the text of the package to the RFCs

C77 of `properties.jsonl`.  On one side is the text of the files in /repo, run by the interpreter; on the other side are the grammars and
equivalences of the RFCs (`SpecRfc.lean`, `SpecEquiv.lean`).
-/
set_option autoImplicit false
namespace Urn.GoLang
open Spec Rfc

/-- RFC 8141: the language, and the parts that the methods report. -/
theorem C77_8141 {P C : Prog} (hP : IsProgram files P) (hC : IsProgram [clientGo] C) (X : Ext) (s : Bytes) (hf : X.Fits s) :
    (TextAccepts P X RFC8141Only s ∧ HexEscapes s ↔ ∃ pre nid nss r q f, Parts8141 s pre nid nss r q f ∧ Restricted nid r q) ∧
    (TextAccepts P X RFC8141Only s → (R8141.namestring s ↔ HexEscapes s)) ∧
    ∀ pre nid nss r q f, Parts8141 s pre nid nss r q f → Restricted nid r q → ∀ h, ∃ a,
      Returns P C X h [.parse s [RFC8141Only], .getID 0, .getSS 0, .rComponent 0, .qComponent 0, .fComponent 0]
        [[.ptr "URN" (some a), .bool true], [.str nid], [.str nss], [.str (r.getD [])], [.str (q.getD [])], [.str (f.getD [])]] := by
  rw [(accepts_text hP X _ s hf).1]
  refine ⟨(C48_exact s).1, C48_sound s, fun pre nid nss r q f h1 h2 h => ?_⟩
  have hs := (parts_iff.2 ⟨h1, h2⟩).1
  have hp := parsesTo_8141.2 ⟨_, _, _, _, _, _, hs, rfl⟩
  obtain ⟨f', g, h1, h2, h3⟩ := returns_of hP hC X [.parse s [RFC8141Only], .getID 0, .getSS 0, .rComponent 0, .qComponent 0, .fComponent 0]
    (by simp [Step.Fits, hf]) h [.urn (some 0) true, .bytes nid, .bytes nss, .bytes (r.getD []), .bytes (q.getD []), .bytes (f.getD [])] 1 0 (by
      simp only [runModel, Step.act, List.map_cons, List.map_nil, Heap.Mem.act, parse_of hp]
      exact ⟨_, _, rfl, rfl, rfl⟩)
  obtain ⟨⟨a, ha⟩, -⟩ := h2.2 0 (by omega)
  refine ⟨a, ?_⟩
  simpa [valsAll, Step.vals, ha] using h1

example {P C : Prog} (hP : IsProgram files P) (hC : IsProgram [clientGo] C) (X : Ext) (h : Heap) : ∃ a,
    Returns P C X h [.parse (lit "urn:ab:c?+d?=e#f") [RFC8141Only], .getID 0, .getSS 0, .rComponent 0, .qComponent 0, .fComponent 0]
      [[.ptr "URN" (some a), .bool true], [.str (lit "ab")], [.str (lit "c")], [.str (lit "d")], [.str (lit "e")], [.str (lit "f")]] :=
  (C77_8141 hP hC X _ (X.fits_of (by decide))).2.2 _ _ _ _ _ _ parts_case.1 parts_case.2 h

/-- RFC 8141 without components. -/
theorem C77_assigned {P : Prog} (hP : IsProgram files P) (X : Ext) (s : Bytes) (hf : X.Fits s) (h : R8141.assignedName s) :
    TextAccepts P X RFC8141Only s ↔ ¬ ∃ a p x t, s = a ++ 58 :: (p ++ 45 :: x :: t) ∧ a.length = 3 ∧ str "urn" p ∧ (ALPHA [x] ∨ x = 48) := by
  rw [(accepts_text hP X _ s hf).1]
  exact C48_assigned s h

/-- A NID that begins with `urn-` and a digit is accepted. -/
example {P : Prog} (hP : IsProgram files P) (X : Ext) : TextAccepts P X RFC8141Only (lit "urn:urn-7:c") := by
  refine (C77_assigned hP X _ (X.fits_of (by decide)) ⟨lit "urn", lit ":urn-7:c", by rfl, rfl, [58], lit "urn-7:c", by rfl, str_colon.mpr rfl, lit "urn-7", lit ":c", by rfl,
      nid8141_iff.mpr ⟨by decide, by decide, by decide, by decide, by decide⟩, [58], lit "c", by rfl, str_colon.mpr rfl,
      nss8141_iff.mpr ⟨.char (by decide) .nil, .char (by decide) .nil⟩⟩).2 ?_
  rintro ⟨a, p, x, t, e, ha, hp, hx⟩
  have hl := urn_length (str_urn.1 hp)
  match a, p, ha, hl with
  | [_, _, _], [_, _, _], _, _ =>
    have : x = 55 := by
      have e := congrArg (·[8]?) e
      simpa [lit] using e.symm
    subst this
    rw [alpha_single] at hx
    exact absurd hx (by decide)

/-- RFC 2141. -/
theorem C77_2141 {P : Prog} (hP : IsProgram files P) (X : Ext) (s : Bytes) (hf : X.Fits s) :
    (TextAccepts P X RFC2141Only s ∧ HexEscapes s ↔
      R2141.URN s ∧ HexEscapes s ∧ NoReserved s ∧ ¬ ((s[4]? = some 117 ∨ s[4]? = some 85) ∧ s[7]? = some 58)) ∧
    (TextAccepts P X RFC2141Only s → R2141.URN s) := by
  rw [(accepts_text hP X _ s hf).1]
  exact ⟨C49_exact s, C49_sound s⟩

example {P : Prog} (hP : IsProgram files P) (X : Ext) : R2141.URN Cases.s2141 :=
  (C77_2141 hP X _ (X.fits_of (by decide))).2 ((accepts_text hP X _ _ (X.fits_of (by decide))).1.2 ⟨_, Cases.p2141⟩)

/-- RFC 7643. -/
theorem C77_7643 {P : Prog} (hP : IsProgram files P) (X : Ext) (s : Bytes) (hf : X.Fits s) :
    (TextAccepts P X RFC7643Only s ∧ HexEscapes s ↔ R7643.scimWith (fun w => w = lit "ietf") (reps 1 R2141.letNum) s) ∧
    (TextAccepts P X RFC7643Only s → HexEscapes s → R7643.scim s) := by
  rw [(accepts_text hP X _ s hf).1]
  exact ⟨C50_exact s, C50_sound s⟩

example {P : Prog} (hP : IsProgram files P) (X : Ext) : R7643.scim (lit "urn:ietf:params:scim:api:x") :=
  (C77_7643 hP X _ (X.fits_of (by decide))).2 ((accepts_text hP X _ _ (X.fits_of (by decide))).1.2
    ⟨urnScim (lit "urn") (lit "api") 2 (lit "x") [] [], parsesTo_of (by decide)⟩) (hexEscapes_none (by decide))

/-- `Equal` is the lexical equivalence of RFC 2141, section 5, on the texts accepted in RFC 2141 mode. -/
theorem C77_equal_2141 {P C : Prog} (hP : IsProgram files P) (hC : IsProgram [clientGo] C) (X : Ext) (h : Heap) (s t : Bytes) (hf : X.Fits s) (hf' : X.Fits t)
    (hs : TextAccepts P X RFC2141Only s) (ht : TextAccepts P X RFC2141Only t) : ∃ a b e, a ≠ b ∧
      Returns P C X h [.parse s [RFC2141Only], .parse t [RFC2141Only], .equal 0 1]
        [[.ptr "URN" (some a), .bool true], [.ptr "URN" (some b), .bool true], [.bool e]] ∧ (e = true ↔ R2141.equivalent s t) := by
  have h1 := (C77_2141 hP X s hf).2 hs
  have h2 := (C77_2141 hP X t hf').2 ht
  obtain ⟨⟨_, _, _, g1⟩, l1⟩ := (C64_exact_2141 hP X s hf).1.1 hs
  obtain ⟨⟨_, _, _, g2⟩, l2⟩ := (C64_exact_2141 hP X t hf').1.1 ht
  obtain ⟨a, b, e, h3, h4, h5⟩ := C74_equal hP hC X h _ _ s t _ _ _ _ hf hf' (.rfc2141 g1 l1) (.rfc2141 g2 l2)
  exact ⟨a, b, e, h3, h4, by rw [h5, equivalent_2141 g1 g2 h1 h2]⟩

example {P C : Prog} (hP : IsProgram files P) (hC : IsProgram [clientGo] C) (X : Ext) (h : Heap) : ∃ a b e, a ≠ b ∧
    Returns P C X h [.parse (lit "urn:a:%2F") [RFC2141Only], .parse (lit "URN:A:%2f") [RFC2141Only], .equal 0 1]
      [[.ptr "URN" (some a), .bool true], [.ptr "URN" (some b), .bool true], [.bool e]] ∧ (e = true ↔ R2141.equivalent (lit "urn:a:%2F") (lit "URN:A:%2f")) :=
  C77_equal_2141 hP hC X h _ _ (X.fits_of (by decide)) (X.fits_of (by decide))
    ((accepts_text hP X _ _ (X.fits_of (by decide))).1.2 ⟨urn2141 (lit "urn") (lit "a") (lit "%2F"), parsesTo_of (by decide)⟩)
    ((accepts_text hP X _ _ (X.fits_of (by decide))).1.2 ⟨urn2141 (lit "URN") (lit "A") (lit "%2f"), parsesTo_of (by decide)⟩)

/-- `Equal` is the URN-equivalence of RFC 8141, section 3.1, on the namestrings accepted in RFC 8141 mode. -/
theorem C77_equal_8141 {P C : Prog} (hP : IsProgram files P) (hC : IsProgram [clientGo] C) (X : Ext) (h : Heap) (s t : Bytes) (hf : X.Fits s) (hf' : X.Fits t)
    (hs : TextAccepts P X RFC8141Only s) (ht : TextAccepts P X RFC8141Only t) (hn : R8141.namestring s) (hn' : R8141.namestring t) : ∃ a b e, a ≠ b ∧
      Returns P C X h [.parse s [RFC8141Only], .parse t [RFC8141Only], .equal 0 1]
        [[.ptr "URN" (some a), .bool true], [.ptr "URN" (some b), .bool true], [.bool e]] ∧ (e = true ↔ R8141.equivalent s t) := by
  obtain ⟨_, _, _, _, _, _, g1⟩ := (C77_8141 hP hC X s hf).1.1 ⟨hs, ((C77_8141 hP hC X s hf).2.1 hs).1 hn⟩
  obtain ⟨_, _, _, _, _, _, g2⟩ := (C77_8141 hP hC X t hf').1.1 ⟨ht, ((C77_8141 hP hC X t hf').2.1 ht).1 hn'⟩
  obtain ⟨a, b, e, h3, h4, h5⟩ := C74_equal hP hC X h _ _ s t _ _ _ _ hf hf' (.rfc8141 (parts_iff.2 g1).1) (.rfc8141 (parts_iff.2 g2).1)
  exact ⟨a, b, e, h3, h4, by rw [h5, equivalent_8141 g1.1 g2.1]⟩

/-- Components do not matter, nor does the case of the NID. -/
example {P C : Prog} (hP : IsProgram files P) (hC : IsProgram [clientGo] C) (X : Ext) (h : Heap) : ∃ a b, a ≠ b ∧
    Returns P C X h [.parse (lit "urn:ab:c?+d?=e#f") [RFC8141Only], .parse (lit "URN:aB:c") [RFC8141Only], .equal 0 1]
      [[.ptr "URN" (some a), .bool true], [.ptr "URN" (some b), .bool true], [.bool true]] := by
  have p2 : Parts8141 (lit "URN:aB:c") (lit "URN") (lit "aB") (lit "c") none none none ∧ Restricted (lit "aB") none none := by
    refine ⟨⟨by decide, str_urn.2 (by unfold IsUrn; decide), nid8141_iff.2 (by decide), nss8141_iff.2 ⟨.char (by decide) .nil, .char (by decide) .nil⟩, by simp, by simp, by simp⟩,
      ⟨?_, by simp, by simp, by simp⟩⟩
    rintro ⟨p, x, t, e, _⟩
    have := congrArg (45 ∈ ·) e
    simp [lit] at this
  have f1 : X.Fits (lit "urn:ab:c?+d?=e#f") := X.fits_of (by decide)
  have f2 : X.Fits (lit "URN:aB:c") := X.fits_of (by decide)
  have a1 := ((C77_8141 hP hC X _ f1).1.2 ⟨_, _, _, _, _, _, parts_case⟩).1
  have a2 := ((C77_8141 hP hC X _ f2).1.2 ⟨_, _, _, _, _, _, p2⟩).1
  obtain ⟨a, b, e, h1, h2, h3⟩ := C77_equal_8141 hP hC X h _ _ f1 f2 a1 a2 (namestring_iff.2 ⟨_, _, _, _, _, _, parts_case.1⟩)
    (namestring_iff.2 ⟨_, _, _, _, _, _, p2.1⟩)
  have he : e = true := h3.2 ((equivalent_8141 parts_case.1 p2.1).2 ⟨by decide, .char (by decide) .nil⟩)
  subst he
  exact ⟨a, b, h1, h2⟩

/-- The case of the NSS does. -/
example : ¬ R8141.equivalent (lit "urn:ab:c") (lit "urn:ab:C") := by
  have p : ∀ c, isPchar c = true → Parts8141 (lit "urn:ab:" ++ [c]) (lit "urn") (lit "ab") [c] none none none := fun c hc =>
    ⟨rfl, str_urn.2 (by unfold IsUrn; decide), nid8141_iff.2 (by decide), nss8141_iff.2 ⟨.char hc .nil, .char (by simp [isPcharSlash, hc]) .nil⟩, by simp, by simp, by simp⟩
  intro h
  have := ((equivalent_8141 (p 99 (by decide)) (p 67 (by decide))).1 h).2
  cases this

/-- The restrictions are real: URNs of the RFCs that the text rejects, and a text that it accepts which is not a namestring. -/
theorem C77_refuted {P : Prog} (hP : IsProgram files P) (X : Ext) :
    (∀ s ∈ [lit "urn:ab:c?+d?+e", lit "urn:ab:c?=d?=e", lit "urn:urn-x:c"], R8141.namestring s ∧ TextRejects P X RFC8141Only s) ∧
    (TextAccepts P X RFC8141Only (lit "urn:ab:%zz") ∧ ¬ R8141.namestring (lit "urn:ab:%zz")) ∧
    (∀ s ∈ [lit "urn:ab:c/d", lit "urn:uci:d"], R2141.URN s ∧ TextRejects P X RFC2141Only s) ∧
    (∀ s ∈ [lit "urn:IETF:params:scim:api:x", lit "urn:ietf:params:scim:api:a-b"], R7643.scim s ∧ TextRejects P X RFC7643Only s) := by
  have k : ∀ mode s, s.length < 2 ^ 31 → ¬ Accepts mode s → TextRejects P X mode s := fun mode s hl hn =>
    (accepts_text hP X mode s (X.fits_of hl)).2.2 hn
  obtain ⟨⟨a1, a2⟩, ⟨b1, b2⟩, ⟨c1, c2⟩, d1, d2⟩ := C48_refuted
  obtain ⟨⟨e1, e2⟩, ⟨f1, f2⟩, -⟩ := C49_refuted
  obtain ⟨⟨g1, g2⟩, ⟨h1, h2⟩⟩ := C50_refuted
  simp only [List.forall_mem_cons, List.not_mem_nil, false_implies, implies_true, and_true]
  exact ⟨⟨⟨a1, k _ _ (by decide) a2⟩, ⟨b1, k _ _ (by decide) b2⟩, ⟨c1, k _ _ (by decide) c2⟩⟩,
    ⟨(accepts_text hP X _ _ (X.fits_of (by decide))).1.2 d1, d2⟩, ⟨⟨e1, k _ _ (by decide) e2⟩, ⟨f1, k _ _ (by decide) f2⟩⟩,
    ⟨g1, k _ _ (by decide) g2⟩, ⟨h1, k _ _ (by decide) h2⟩⟩

end Urn.GoLang
