import Verif.GoEndAux
import Verif.PropsEqual
import Verif.PropsErrKind
import Verif.PropsText
import Verif.PropsJsonText
/-!
# From the text of the package to the grammars

C74 of `properties.jsonl`.  Nothing of the model is in these statements: on one side is the text of the files in /repo, run by the
interpreter and called by the Go functions of `clientGo`; on the other side are the grammars of `Spec.lean`.
-/
set_option autoImplicit false
namespace Urn.GoLang
open Spec SpecJson
open Urn.Heap (Mem Got)

/-! ## Parse and the methods without arguments -/

/-- RFC 2141: the parts of the text. -/
theorem C74_2141 {P C : Prog} (hP : IsProgram files P) (hC : IsProgram [clientGo] C) (X : Ext) (h : Heap) (s pre nid nss : Bytes) (hf : X.Fits s)
    (hs : Urn2141 s pre nid nss) (hu : ¬ ((s[4]? = some 117 ∨ s[4]? = some 85) ∧ s[7]? = some 58)) :
    ∃ a, Returns P C X h (.parse s [RFC2141Only] :: ask 0)
      [[.ptr "URN" (some a), .bool true], [.str nid], [.str nss], [.str s], [.int "Kind" 1], [.bool false], [.ptr "SCIM" none], [.str []], [.str []], [.str []]] := by
  have hp := parsesTo_2141.2 ⟨_, _, _, hs, lookahead_of hu, rfl⟩
  obtain ⟨f, g, h1, h2, h3⟩ := returns_of hP hC X (.parse s [RFC2141Only] :: ask 0) (by simp [Step.Fits, ask, hf]) h
    [.urn (some 0) true, .bytes nid, .bytes nss, .bytes (urn2141 pre nid nss).string, .kind .RFC2141, .bool false, .scim none, .bytes [], .bytes [], .bytes []] 1 0 (by
      simp only [ask, runModel, Step.act, List.map_cons, List.map_nil, Mem.act, parse_of hp]
      exact ⟨_, _, rfl, rfl, rfl⟩)
  obtain ⟨⟨a, ha⟩, -⟩ := h2.2 0 (by omega)
  refine ⟨a, ?_⟩
  simpa [valsAll, ask, Step.vals, ha, h3.1, kindNum, C07_round_trip s _ hp] using h1

example {P C : Prog} (hP : IsProgram files P) (hC : IsProgram [clientGo] C) (X : Ext) (h : Heap) : ∃ a, Returns P C X h (.parse (lit "URN:x-Y:%2Fa:B") [RFC2141Only] :: ask 0)
    [[.ptr "URN" (some a), .bool true], [.str (lit "x-Y")], [.str (lit "%2Fa:B")], [.str (lit "URN:x-Y:%2Fa:B")], [.int "Kind" 1], [.bool false],
      [.ptr "SCIM" none], [.str []], [.str []], [.str []]] :=
  C74_2141 hP hC X h _ _ _ _ (X.fits_of (by decide)) Cases.w2141 (by decide)

/-- RFC 7643: the parts of the text, and those of the SCIM struct. -/
theorem C74_7643 {P C : Prog} (hP : IsProgram files P) (hC : IsProgram [clientGo] C) (X : Ext) (h : Heap) (s pre kw name tail other : Bytes) (ty : SchemaType)
    (hf : X.Fits s) (hs : UrnScim s pre kw ty name tail other) :
    ∃ a b, Returns P C X h (.parse s [RFC7643Only] :: ask 0 ++ [.scimFields 0, .scimString 0])
      [[.ptr "URN" (some a), .bool true], [.str (lit "ietf:params:scim")], [.str (kw ++ 58 :: (name ++ tail))], [.str s], [.int "Kind" 2], [.bool true],
        [.ptr "SCIM" (some b)], [.str []], [.str []], [.str []], [.int "Type" ty, .str name, .str other],
        [.str (lit "urn:ietf:params:scim:" ++ kw ++ 58 :: (name ++ tail))]] := by
  have hp := parsesTo_7643.2 ⟨_, _, _, _, _, _, hs, rfl⟩
  obtain ⟨f, g, h1, h2, h3⟩ := returns_of hP hC X (.parse s [RFC7643Only] :: ask 0 ++ [.scimFields 0, .scimString 0]) (by simp [Step.Fits, ask, hf]) h
    [.urn (some 0) true, .bytes (lit "ietf:params:scim"), .bytes (kw ++ 58 :: (name ++ tail)), .bytes (urnScim pre kw ty name tail other).string, .kind .RFC7643, .bool true,
      .scim (some 0), .bytes [], .bytes [], .bytes [], .fields ty name other, .bytes (SCIM.string { Typ := ty, Name := name, Other := other })] 1 1 (by
      simp only [ask, runModel, Step.act, List.map_cons, List.map_nil, Mem.act, parse_of hp, List.cons_append, List.nil_append]
      exact ⟨_, _, rfl, rfl, rfl⟩)
  obtain ⟨⟨a, ha⟩, -⟩ := h2.2 0 (by omega)
  obtain ⟨⟨b, hb⟩, -⟩ := h3.2 0 (by omega)
  refine ⟨a, b, ?_⟩
  have e1 : (urnScim pre kw ty name tail other).string = s := by
    obtain ⟨_, _, _, _, _, _, _, _, _, _, _, _, _, _, he, _⟩ := C10_pieces s _ hp
    exact he
  simpa [valsAll, ask, Step.vals, ha, hb, kindNum, e1, scim_string hs] using h1

example {P C : Prog} (hP : IsProgram files P) (hC : IsProgram [clientGo] C) (X : Ext) (h : Heap) : ∃ a b,
    Returns P C X h (.parse (lit "URN:ietf:params:scim:schemas:core:2.0%3AUser") [RFC7643Only] :: ask 0 ++ [.scimFields 0, .scimString 0])
      [[.ptr "URN" (some a), .bool true], [.str (lit "ietf:params:scim")], [.str (lit "schemas:core:2.0%3AUser")], [.str (lit "URN:ietf:params:scim:schemas:core:2.0%3AUser")],
        [.int "Kind" 2], [.bool true], [.ptr "SCIM" (some b)], [.str []], [.str []], [.str []], [.int "Type" 1, .str (lit "core"), .str (lit "2.0%3AUser")],
        [.str (lit "urn:ietf:params:scim:schemas:core:2.0%3AUser")]] :=
  C74_7643 hP hC X h _ _ _ _ _ _ _ (X.fits_of (by decide)) Cases.w7643

/-- RFC 8141: the parts of the text. -/
theorem C74_8141 {P C : Prog} (hP : IsProgram files P) (hC : IsProgram [clientGo] C) (X : Ext) (h : Heap) (s pre nid nss : Bytes) (r q f : Option Bytes)
    (hf : X.Fits s) (hs : Urn8141 s pre nid nss r q f) :
    ∃ a, Returns P C X h (.parse s [RFC8141Only] :: ask 0)
      [[.ptr "URN" (some a), .bool true], [.str nid], [.str nss], [.str (text8141 pre nid nss r q f)], [.int "Kind" 3], [.bool false], [.ptr "SCIM" none],
        [.str (r.getD [])], [.str (q.getD [])], [.str (f.getD [])]] := by
  have hp := parsesTo_8141.2 ⟨_, _, _, _, _, _, hs, rfl⟩
  obtain ⟨f', g, h1, h2, h3⟩ := returns_of hP hC X (.parse s [RFC8141Only] :: ask 0) (by simp [Step.Fits, ask, hf]) h
    [.urn (some 0) true, .bytes nid, .bytes nss, .bytes (urn8141 pre nid nss r q f).string, .kind .RFC8141, .bool false, .scim none,
      .bytes (r.getD []), .bytes (q.getD []), .bytes (f.getD [])] 1 0 (by
      simp only [ask, runModel, Step.act, List.map_cons, List.map_nil, Mem.act, parse_of hp]
      exact ⟨_, _, rfl, rfl, rfl⟩)
  obtain ⟨⟨a, ha⟩, -⟩ := h2.2 0 (by omega)
  refine ⟨a, ?_⟩
  simpa [valsAll, ask, Step.vals, ha, h3.1, kindNum, string_8141 hs] using h1

example {P C : Prog} (hP : IsProgram files P) (hC : IsProgram [clientGo] C) (X : Ext) (h : Heap) : ∃ a, Returns P C X h (.parse (lit "urn:Ab-1:c/D%4A?+r?=q#f") [RFC8141Only] :: ask 0)
    [[.ptr "URN" (some a), .bool true], [.str (lit "Ab-1")], [.str (lit "c/D%4A")], [.str (lit "urn:Ab-1:c/D%4A?+r?=q#f")], [.int "Kind" 3], [.bool false],
      [.ptr "SCIM" none], [.str (lit "r")], [.str (lit "q")], [.str (lit "f")]] :=
  C74_8141 hP hC X h _ _ _ _ _ _ _ (X.fits_of (by decide)) Cases.w8141

/-- All other texts: nil is returned, with false, except for the texts of the defect of C22. -/
theorem C74_rejected {P C : Prog} (hP : IsProgram files P) (hC : IsProgram [clientGo] C) (X : Ext) (h : Heap) (mode : ParsingMode) (hk : KnownMode mode) (s : Bytes)
    (hf : X.Fits s) (hs : ¬ ∃ i x, Splits mode s i x) :
    ∃ b, Returns P C X h [.parse s [mode]] [[.ptr "URN" none, .bool b]] ∧ (b = true ↔ mode = RFC8141Only ∧ Silent8141 s) := by
  have hn : ¬ Accepts mode s := fun ha => hs (accepts_splits hk ha)
  obtain ⟨r, hr, hu⟩ := parse_nil hn
  obtain ⟨f, g, h1, h2, h3⟩ := returns_of hP hC X [.parse s [mode]] (by simp [Step.Fits, hf]) h [.urn none r.ok] 0 0 (by
      simp only [runModel, Step.act, List.map_cons, List.map_nil, Mem.act, hr, Run.ok_bind, hu]
      exact ⟨_, _, rfl, rfl, rfl⟩)
  refine ⟨r.ok, ?_, ?_⟩
  · simpa [valsAll, Step.vals, h2.1] using h1
  · rcases hk with rfl | rfl | rfl
    · have := (C22_ok_iff _ (.inl rfl) s).1 r hr
      rw [hu] at this
      simp [this, RFC2141Only, RFC8141Only]
    · have := (C22_ok_iff _ (.inr rfl) s).1 r hr
      rw [hu] at this
      simp [this, RFC7643Only, RFC8141Only]
    · have := C22_8141 s r hr
      rw [hu] at this
      by_cases hb : r.ok = true <;> simp_all

/-- No colon, and a question mark at the end. -/
example {P C : Prog} (hP : IsProgram files P) (hC : IsProgram [clientGo] C) (X : Ext) (h : Heap) :
    Returns P C X h [.parse (lit "urn") [RFC8141Only]] [[.ptr "URN" none, .bool false]] ∧ Returns P C X h [.parse (lit "urn:ab:c?") [RFC8141Only]] [[.ptr "URN" none, .bool true]] := by
  have key : ∀ s, s.length < 2 ^ 31 → ¬ Accepts RFC8141Only s → _ := fun s hf hn =>
    C74_rejected hP hC X h RFC8141Only (.inr (.inr rfl)) s (X.fits_of hf) fun ⟨_, _, hs⟩ => hn (have ⟨_, u, hu, _⟩ := hs.urn; ⟨u, hu⟩)
  obtain ⟨b, h1, h2⟩ := key (lit "urn") (by decide) (not_accepts_of (by decide))
  obtain ⟨c, h3, h4⟩ := key (lit "urn:ab:c?") (by decide) (not_accepts_of (by decide))
  have hs : Silent8141 (lit "urn:ab:c?") := (Classical.not_not.1 fun hn => by simpa using (C22_8141 _ _ C22_refuted).2 hn)
  have hb : b = false := by
    cases b with
    | false => rfl
    | true =>
        exfalso
        have h5 := (C22_8141 _ _ (parse_mode RFC8141Only (lit "urn"))).1 (by decide)
        exact h5 (h2.1 rfl).2
  rw [hb] at h1
  rw [h4.2 ⟨rfl, hs⟩] at h3
  exact ⟨h1, h3⟩

/-! ## Normalize and Equal -/

/-- `Normalize` returns a new URN, with the identifier and the characters in escapes in lower case, and changes nothing. -/
theorem C74_normalize {P C : Prog} (hP : IsProgram files P) (hC : IsProgram [clientGo] C) (X : Ext) (h : Heap) (mode : ParsingMode) (s i x : Bytes) (hf : X.Fits s)
    (hs : Splits mode s i x) : ∃ a b, a ≠ b ∧
      Returns P C X h [.parse s [mode], .normalize 0, .getID 1, .getSS 1, .stringOf 1, .getID 0, .getSS 0]
        [[.ptr "URN" (some a), .bool true], [.ptr "URN" (some b)], [.str (lowerAll i)], [.str (lowerEsc x)],
          [.str (lit "urn:" ++ lowerAll i ++ lit ":" ++ lowerEsc x)], [.str i], [.str x]] := by
  obtain ⟨hk, u, hp, rfl, rfl⟩ := hs.urn
  obtain ⟨e1, e2, -, e3⟩ := C08_normalize mode hk s u hp X.uni
  obtain ⟨f, g, h1, h2, h3⟩ := returns_of hP hC X [.parse s [mode], .normalize 0, .getID 1, .getSS 1, .stringOf 1, .getID 0, .getSS 0] (by simp [Step.Fits, hf]) h
    [.urn (some 0) true, .urn (some 1) true, .bytes (u.normalize X.uni).ID, .bytes (u.normalize X.uni).SS, .bytes (u.normalize X.uni).string, .bytes u.ID, .bytes u.SS]
    2 (u.scim.toList.length) (by
      simp only [runModel, Step.act, List.map_cons, List.map_nil, Mem.act, parse_of hp]
      obtain ⟨_, _, _, _, _, _ | _, _, _, _, _, _, _⟩ := u <;> exact ⟨_, _, rfl, rfl, rfl⟩)
  obtain ⟨⟨a, ha⟩, hab⟩ := h2.2 0 (by omega)
  obtain ⟨⟨b, hb⟩, -⟩ := h2.2 1 (by omega)
  refine ⟨a, b, ?_, ?_⟩
  · rintro rfl
    exact absurd (hab 1 (by omega) (ha.trans hb.symm)) (by decide)
  · simpa only [valsAll, List.zipWith_cons_cons, List.zipWith_nil_left, Step.vals, ha, hb, e1, e2, e3] using h1

example {P C : Prog} (hP : IsProgram files P) (hC : IsProgram [clientGo] C) (X : Ext) (h : Heap) : ∃ a b, a ≠ b ∧
    Returns P C X h [.parse (lit "URN:x-Y:%2Fa:B") [RFC2141Only], .normalize 0, .getID 1, .getSS 1, .stringOf 1, .getID 0, .getSS 0]
      [[.ptr "URN" (some a), .bool true], [.ptr "URN" (some b)], [.str (lit "x-y")], [.str (lit "%2fa:B")], [.str (lit "urn:x-y:%2fa:B")], [.str (lit "x-Y")], [.str (lit "%2Fa:B")]] :=
  C74_normalize hP hC X h _ _ _ _ (X.fits_of (by decide)) (.rfc2141 Cases.w2141 (by decide))

/-- `Equal` is lexical equivalence. -/
theorem C74_equal {P C : Prog} (hP : IsProgram files P) (hC : IsProgram [clientGo] C) (X : Ext) (h : Heap) (mode mode' : ParsingMode) (s t i j x y : Bytes)
    (hf : X.Fits s) (hf' : X.Fits t) (hs : Splits mode s i x) (ht : Splits mode' t j y) : ∃ a b e, a ≠ b ∧
      Returns P C X h [.parse s [mode], .parse t [mode'], .equal 0 1]
        [[.ptr "URN" (some a), .bool true], [.ptr "URN" (some b), .bool true], [.bool e]] ∧ (e = true ↔ lowerAll i = lowerAll j ∧ EscEq x y) := by
  obtain ⟨hk, u, hp, rfl, rfl⟩ := hs.urn
  obtain ⟨hk', v, hp', rfl, rfl⟩ := ht.urn
  obtain ⟨f, g, h1, h2, h3⟩ := returns_of hP hC X [.parse s [mode], .parse t [mode'], .equal 0 1] (by simp [Step.Fits, hf, hf']) h
    [.urn (some 0) true, .urn (some 1) true, .bool (u.equal X.uni (some v))] 2 (u.scim.toList.length + v.scim.toList.length) (by
      simp only [runModel, Step.act, List.map_cons, List.map_nil, Mem.act, parse_of hp, parse_of hp']
      obtain ⟨_, _, _, _, _, _ | _, _, _, _, _, _, _⟩ := u <;> obtain ⟨_, _, _, _, _, _ | _, _, _, _, _, _, _⟩ := v <;> exact ⟨_, _, rfl, rfl, rfl⟩)
  obtain ⟨⟨a, ha⟩, hab⟩ := h2.2 0 (by omega)
  obtain ⟨⟨b, hb⟩, -⟩ := h2.2 1 (by omega)
  refine ⟨a, b, u.equal X.uni (some v), ?_, ?_, C17_lexical mode mode' hk hk' s t u v hp hp' X.uni⟩
  · rintro rfl
    exact absurd (hab 1 (by omega) (ha.trans hb.symm)) (by decide)
  · simpa only [valsAll, List.zipWith_cons_cons, List.zipWith_nil_left, Step.vals, ha, hb] using h1

/-- Two ways to write the same URN, in two modes. -/
example {P C : Prog} (hP : IsProgram files P) (hC : IsProgram [clientGo] C) (X : Ext) (h : Heap) : ∃ a b, a ≠ b ∧
    Returns P C X h [.parse (lit "URN:x-Y:%2Fa:B") [RFC2141Only], .parse (lit "urn:X-y:%2fa:B?+r") [RFC8141Only], .equal 0 1]
      [[.ptr "URN" (some a), .bool true], [.ptr "URN" (some b), .bool true], [.bool true]] := by
  have ht : Splits RFC8141Only (lit "urn:X-y:%2fa:B?+r") (lit "X-y") (lit "%2fa:B") :=
    splits_of (.inr (.inr rfl)) (u := urn8141 (lit "urn") (lit "X-y") (lit "%2fa:B") (some (lit "r")) none none) (parsesTo_of (by decide))
  obtain ⟨a, b, e, h1, h2, h3⟩ := C74_equal hP hC X h _ _ _ _ _ _ _ _ (X.fits_of (s := lit "URN:x-Y:%2Fa:B") (by decide)) (X.fits_of (by decide))
    (.rfc2141 Cases.w2141 (by decide)) ht
  rw [h3.2 ⟨by decide, .pct rfl rfl (.char (by decide) (.char (by decide) (.char (by decide) .nil)))⟩] at h2
  exact ⟨a, b, h1, h2⟩

/-! ## JSON -/

/-- A JSON text of an RFC 2141 URN is decoded to that URN, which is encoded as its text in quotes. -/
theorem C74_json_2141 {P C : Prog} (hP : IsProgram files P) (hC : IsProgram [clientGo] C) (X : Ext) (hj : X.json = Json.codec) (h : Heap) (t s i x : Bytes) (hf : X.Fits s)
    (hs : Splits RFC2141Only s i x) (ht : JsonText t s) :
    ∃ a, Returns P C X h [.newURN, .unmarshalJSON 0 t, .getID 0, .getSS 0, .stringOf 0, .marshalJSON 0]
      [[.ptr "URN" (some a)], [.nil], [.str i], [.str x], [.str s], [.str (lit "\"" ++ s ++ lit "\""), .nil]] := by
  obtain ⟨hk, u, hp, rfl, rfl⟩ := hs.urn
  have hd : X.json.unmarshal t = some s := by rw [hj]; exact (decodes_iff hk ⟨_, hp⟩).2 ht
  have e1 := C07_round_trip s u hp
  have e2 := (C54_text _ hk s u hp).1 (.inl rfl)
  have hp' : Urn.parse s = .ok ⟨some u, true, s⟩ := parse_of hp
  obtain ⟨f, g, h1, h2, h3⟩ := returns_of hP hC X [.newURN, .unmarshalJSON 0 t, .getID 0, .getSS 0, .stringOf 0, .marshalJSON 0]
    (by simp only [List.mem_cons, List.not_mem_nil, or_false, forall_eq_or_imp, forall_eq, Step.Fits, and_true, true_and]; intro s' hs'; rw [hd] at hs'; cases hs'; exact hf) h
    [.urn (some 0) true, .err none, .bytes u.ID, .bytes u.SS, .bytes u.string, .bytes (u.marshalJSON X.json)] 1 u.scim.toList.length (by
      simp only [runModel, Step.act, Mem.act, hd, hp']
      obtain ⟨_, _, _, _, _, _ | _, _, _, _, _, _, _⟩ := u <;> exact ⟨_, _, rfl, rfl, rfl⟩)
  obtain ⟨⟨a, ha⟩, -⟩ := h2.2 0 (by omega)
  refine ⟨a, ?_⟩
  rw [hj, e2, e1] at h1
  simpa only [valsAll, List.zipWith_cons_cons, List.zipWith_nil_left, Step.vals, ha, jerrVal] using h1

example {P C : Prog} (hP : IsProgram files P) (hC : IsProgram [clientGo] C) (X : Ext) (hj : X.json = Json.codec) (h : Heap) : ∃ a,
    Returns P C X h [.newURN, .unmarshalJSON 0 (lit " \"URN:x-Y:%2Fa:B\"\n"), .getID 0, .getSS 0, .stringOf 0, .marshalJSON 0]
      [[.ptr "URN" (some a)], [.nil], [.str (lit "x-Y")], [.str (lit "%2Fa:B")], [.str (lit "URN:x-Y:%2Fa:B")], [.str (lit "\"URN:x-Y:%2Fa:B\""), .nil]] :=
  C74_json_2141 hP hC X hj h _ _ _ _ (X.fits_of (by decide)) (.rfc2141 Cases.w2141 (by decide))
    ((decodes_iff (.inl rfl) ⟨_, Cases.p2141⟩).1 (by decide))

/-- A JSON text of a SCIM URN. -/
theorem C74_json_7643 {P C : Prog} (hP : IsProgram files P) (hC : IsProgram [clientGo] C) (X : Ext) (hj : X.json = Json.codec) (h : Heap) (t s pre kw name tail other : Bytes)
    (ty : SchemaType) (hf : X.Fits s) (hs : UrnScim s pre kw ty name tail other) (ht : JsonText t s) :
    ∃ a, Returns P C X h [.newSCIM, .scimUnmarshalJSON 0 t, .scimFields 0, .scimString 0, .scimMarshalJSON 0]
      [[.ptr "SCIM" (some a)], [.nil], [.int "Type" ty, .str name, .str other], [.str (lit "urn:ietf:params:scim:" ++ kw ++ 58 :: (name ++ tail))],
        [.str (lit "\"urn:ietf:params:scim:" ++ kw ++ 58 :: (name ++ tail) ++ lit "\""), .nil]] := by
  have hk : KnownMode RFC7643Only := .inr (.inl rfl)
  have hp := parsesTo_7643.2 ⟨_, _, _, _, _, _, hs, rfl⟩
  have hd : X.json.unmarshal t = some s := by rw [hj]; exact (decodes_iff hk ⟨_, hp⟩).2 ht
  obtain ⟨y, hy, hx⟩ : ∃ y : SCIM, (y.Typ = ty ∧ y.Name = name ∧ y.Other = other) ∧ SCIM.unmarshalJSON X.json {} t = .ok (y, none) := by
    rw [hj]
    exact ⟨_, ⟨rfl, rfl, rfl⟩, (C54_scim _ _ _).2 ⟨s, _, ht, hp, rfl⟩⟩
  obtain ⟨rfl, rfl, rfl⟩ := hy
  obtain ⟨f, g, h1, h2, h3⟩ := returns_of hP hC X [.newSCIM, .scimUnmarshalJSON 0 t, .scimFields 0, .scimString 0, .scimMarshalJSON 0]
    (by simp only [List.mem_cons, List.not_mem_nil, or_false, forall_eq_or_imp, forall_eq, Step.Fits, and_true, true_and]; intro s' hs'; rw [hd] at hs'; cases hs'; exact hf) h
    [.scim (some 0), .err none, .fields y.Typ y.Name y.Other, .bytes y.string, .bytes (X.json.marshal y.string)] 0 1 (by
      simp only [runModel, Step.act, Mem.act, hx]
      exact ⟨_, _, rfl, rfl, rfl⟩)
  obtain ⟨⟨a, ha⟩, -⟩ := h3.2 0 (by omega)
  refine ⟨a, ?_⟩
  have e2 : y.string = lit "urn:ietf:params:scim:" ++ kw ++ 58 :: (y.Name ++ tail) := scim_string hs
  rw [hj, e2, scim_encode hs] at h1
  simpa only [valsAll, List.zipWith_cons_cons, List.zipWith_nil_left, Step.vals, ha, jerrVal] using h1

example {P C : Prog} (hP : IsProgram files P) (hC : IsProgram [clientGo] C) (X : Ext) (hj : X.json = Json.codec) (h : Heap) : ∃ a,
    Returns P C X h [.newSCIM, .scimUnmarshalJSON 0 (lit "\"URN:ietf:params:scim:schemas:core:2.0%3AUser\""), .scimFields 0, .scimString 0, .scimMarshalJSON 0]
      [[.ptr "SCIM" (some a)], [.nil], [.int "Type" 1, .str (lit "core"), .str (lit "2.0%3AUser")], [.str (lit "urn:ietf:params:scim:schemas:core:2.0%3AUser")],
        [.str (lit "\"urn:ietf:params:scim:schemas:core:2.0%3AUser\""), .nil]] :=
  C74_json_7643 hP hC X hj h _ _ _ _ _ _ _ _ (X.fits_of (by decide)) Cases.w7643 ((decodes_iff (.inr (.inl rfl)) ⟨_, Cases.p7643⟩).1 (by decide))

/-- A JSON text of an RFC 8141 URN, decoded into a variable that holds nil. -/
theorem C74_json_8141 {P C : Prog} (hP : IsProgram files P) (hC : IsProgram [clientGo] C) (X : Ext) (hj : X.json = Json.codec) (h : Heap) (t s pre nid nss : Bytes)
    (r q f : Option Bytes) (hf : X.Fits s) (hs : Urn8141 s pre nid nss r q f) (ht : JsonText t s) :
    ∃ a, Returns P C X h [.unmarshal8141 0 t, .getID 0, .getSS 0, .stringOf 0, .rComponent 0, .qComponent 0, .fComponent 0, .marshal8141 0]
      [[.ptr "URN" (some a), .nil], [.str nid], [.str nss], [.str (text8141 pre nid nss r q f)], [.str (r.getD [])], [.str (q.getD [])], [.str (f.getD [])],
        [.str (lit "\"" ++ (text8141 pre nid nss r q f).flatMap (fun c => if c = 38 then lit "\\u0026" else [c]) ++ lit "\""), .nil]] := by
  have hk : KnownMode RFC8141Only := .inr (.inr rfl)
  have hp := parsesTo_8141.2 ⟨_, _, _, _, _, _, hs, rfl⟩
  have hd : X.json.unmarshal t = some s := by rw [hj]; exact (decodes_iff hk ⟨_, hp⟩).2 ht
  have e2 := (C54_text _ hk s _ hp).2
  obtain ⟨f', g, h1, h2, h3⟩ := returns_of hP hC X [.unmarshal8141 0 t, .getID 0, .getSS 0, .stringOf 0, .rComponent 0, .qComponent 0, .fComponent 0, .marshal8141 0]
    (by simp only [List.mem_cons, List.not_mem_nil, or_false, forall_eq_or_imp, forall_eq, Step.Fits, and_true]; intro s' hs'; rw [hd] at hs'; cases hs'; exact hf) h
    [.urn8141 (some 0) none, .bytes nid, .bytes nss, .bytes (urn8141 pre nid nss r q f).string, .bytes (r.getD []), .bytes (q.getD []), .bytes (f.getD []),
      .bytes ((urn8141 pre nid nss r q f).marshalJSON X.json)] 1 0 (by
      simp only [runModel, Step.act, Mem.act, hd, parse_of hp]
      exact ⟨_, _, rfl, rfl, rfl⟩)
  obtain ⟨⟨a, ha⟩, -⟩ := h2.2 0 (by omega)
  refine ⟨a, ?_⟩
  rw [hj, e2, string_8141 hs] at h1
  simpa only [valsAll, List.zipWith_cons_cons, List.zipWith_nil_left, Step.vals, ha, jerrVal] using h1

example {P C : Prog} (hP : IsProgram files P) (hC : IsProgram [clientGo] C) (X : Ext) (hj : X.json = Json.codec) (h : Heap) : ∃ a,
    Returns P C X h [.unmarshal8141 0 (lit "\"urn:Ab-1:c/D%4A?+r?=q#f\""), .getID 0, .getSS 0, .stringOf 0, .rComponent 0, .qComponent 0, .fComponent 0, .marshal8141 0]
      [[.ptr "URN" (some a), .nil], [.str (lit "Ab-1")], [.str (lit "c/D%4A")], [.str (lit "urn:Ab-1:c/D%4A?+r?=q#f")], [.str (lit "r")], [.str (lit "q")], [.str (lit "f")],
        [.str (lit "\"urn:Ab-1:c/D%4A?+r?=q#f\""), .nil]] :=
  C74_json_8141 hP hC X hj h _ _ _ _ _ _ _ _ (X.fits_of (by decide)) Cases.w8141 ((decodes_iff (.inr (.inr rfl)) ⟨_, Cases.p8141⟩).1 (by decide))

/-- All other JSON texts: there is an error and the receiver is as it was, but in RFC 8141 for the texts of the defect of C30. -/
theorem C74_json_rejected {P C : Prog} (hP : IsProgram files P) (hC : IsProgram [clientGo] C) (X : Ext) (hj : X.json = Json.codec) (h : Heap) (t : Bytes) (hf : X.FitsJson t) :
    ((¬ ∃ s i x, JsonText t s ∧ Splits RFC2141Only s i x) → ∀ mode s i x, X.Fits s → Splits mode s i x → ∃ a e, e ≠ Val.nil ∧
      Returns P C X h [.parse s [mode], .unmarshalJSON 0 t, .getID 0, .getSS 0] [[.ptr "URN" (some a), .bool true], [e], [.str i], [.str x]]) ∧
    ((¬ ∃ s i x, JsonText t s ∧ Splits RFC7643Only s i x) → ∀ w, ∃ a e, e ≠ Val.nil ∧
      Returns P C X h [.newSCIM, .setName 0 w, .scimUnmarshalJSON 0 t, .scimFields 0] [[.ptr "SCIM" (some a)], [], [e], [.int "Type" 0, .str w, .str []]]) ∧
    ((¬ ∃ s i x, JsonText t s ∧ Splits RFC8141Only s i x) → ∃ e, (e = Val.nil ↔ ∃ s, Json.codec.unmarshal t = some s ∧ Silent8141 s) ∧
      Returns P C X h [.unmarshal8141 0 t] [[.ptr "URN" none, e]]) := by
  have hjt : ∀ {mode}, KnownMode mode → (¬ ∃ s i x, JsonText t s ∧ Splits mode s i x) → ∀ s, X.json.unmarshal t = some s → ¬ Accepts mode s := by
    intro mode hk hn s hd ha
    obtain ⟨i, x, hsp⟩ := accepts_splits hk ha
    rw [hj] at hd
    exact hn ⟨s, i, x, (decodes_iff hk ha).1 hd, hsp⟩
  refine ⟨fun hn mode s i x hfs hsp => ?_, fun hn w => ?_, fun hn => ?_⟩
  · obtain ⟨hk, u, hp, rfl, rfl⟩ := hsp.urn
    obtain ⟨e, he⟩ : ∃ e, ∀ M : Mem, M.act X.uni X.json (.unmarshalJSON (some 0) t) = .ok (M, .err (some e)) := by
      cases hd : X.json.unmarshal t with
      | none => exact ⟨.json, fun M => by simp only [Mem.act, hd, Run.pure_eq]⟩
      | some str =>
          have hna := hjt (.inl rfl) hn str hd
          obtain ⟨r, hr, hu⟩ := parse_nil hna
          have hr' : Urn.parse str = .ok r := hr
          have hok := (C22_ok_iff _ (.inl rfl) str).1 r hr
          rw [hu] at hok
          refine ⟨.invalidURN str, fun M => ?_⟩
          have : r.ok = false := by simpa using hok
          simp only [Mem.act, hd, hr', Run.ok_bind, this, if_true, Run.pure_eq]
    obtain ⟨f, g, h1, h2, h3⟩ := returns_of hP hC X [.parse s [mode], .unmarshalJSON 0 t, .getID 0, .getSS 0] (by simp [Step.Fits, hfs, hf]) h
      [.urn (some 0) true, .err (some e), .bytes u.ID, .bytes u.SS] 1 u.scim.toList.length (by
        have e1 : ∀ M : Mem, M.act X.uni X.json (.parse s [withParsingMode mode]) = .ok (((M.made u).1.new (M.made u).2).1, .urn (some (M.made u).1.urns.length) true) := fun M => by
          simp only [Mem.act, parse_of hp]; rfl
        simp only [runModel, Step.act, List.map_cons, List.map_nil, e1, Run.ok_bind]
        have e2 : Regs.urn (Regs.addGot {} (.urn (some (Mem.made {} u).1.urns.length) true)) 0 = some 0 := by
          have : (Mem.made {} u).1.urns = [] := by unfold Mem.made; split <;> rfl
          rw [this]; rfl
        rw [e2, he, Run.ok_bind]
        obtain ⟨_, _, _, _, _, _ | _, _, _, _, _, _, _⟩ := u <;> exact ⟨_, _, rfl, rfl, rfl⟩)
    obtain ⟨⟨a, ha⟩, -⟩ := h2.2 0 (by omega)
    refine ⟨a, jerrVal X t (some e), by cases e <;> exact Val.noConfusion, ?_⟩
    simpa only [valsAll, List.zipWith_cons_cons, List.zipWith_nil_left, Step.vals, ha] using h1
  · obtain ⟨y, e, h1, h2, -, -, -, -⟩ := C28_scim X.json {} t
    cases e with
    | none =>
        obtain ⟨str, hd, ha⟩ := h2.1 rfl
        exact absurd ha (hjt (.inr (.inl rfl)) hn str hd)
    | some e =>
      obtain ⟨f, g, h3, h4, h5⟩ := returns_of hP hC X [.newSCIM, .setName 0 w, .scimUnmarshalJSON 0 t, .scimFields 0] (by simp [Step.Fits, hf]) h
        [.scim (some 0), .unit, .err (some e), .fields 0 w []] 0 1 (by
          simp only [runModel, Step.act, Mem.act, h1]
          exact ⟨_, _, rfl, rfl, rfl⟩)
      obtain ⟨⟨a, ha⟩, -⟩ := h5.2 0 (by omega)
      refine ⟨a, jerrVal X t (some e), by cases e <;> exact Val.noConfusion, ?_⟩
      simpa only [valsAll, List.zipWith_cons_cons, List.zipWith_nil_left, Step.vals, ha] using h3
  · obtain ⟨e, he, hx⟩ : ∃ e, ((e = none) ↔ ∃ s, Json.codec.unmarshal t = some s ∧ Silent8141 s) ∧
        ({} : Mem).act X.uni X.json (.unmarshal8141 none t) = .ok ({}, .urn8141 none e) := by
      cases hd : X.json.unmarshal t with
      | none => exact ⟨some .json, by rw [← hj]; simp [hd], by simp only [Mem.act, hd, Run.pure_eq]⟩
      | some str =>
          have hna := hjt (.inr (.inr rfl)) hn str hd
          obtain ⟨r, hr, hu⟩ := parse_nil hna
          have hok := C22_8141 str r hr
          rw [hu] at hok
          have hd' : Json.codec.unmarshal t = some str := by rw [← hj]; exact hd
          cases hb : r.ok with
          | false =>
              refine ⟨some (.invalidURN8141 str), ?_, by simp only [Mem.act, hd, hr, Run.ok_bind, hb, if_true, Run.pure_eq]⟩
              simp only [hd', Option.some.injEq, exists_eq_left', reduceCtorEq, false_iff]
              simpa [hb] using hok
          | true =>
              refine ⟨none, ?_, by simp only [Mem.act, hd, hr, Run.ok_bind, hb, hu, Run.pure_eq, Bool.true_eq_false, if_false]⟩
              simp only [hd', Option.some.injEq, exists_eq_left', true_iff]
              simpa [hb] using hok
    obtain ⟨f, g, h3, h4, h5⟩ := returns_of hP hC X [.unmarshal8141 0 t] (by simp [Step.Fits, hf]) h [.urn8141 none e] 0 0 (by
          simp only [runModel, Step.act]
          have : Regs.urn {} 0 = none := rfl
          rw [this, hx]
          exact ⟨_, _, rfl, rfl, rfl⟩)
    refine ⟨jerrVal X t e, ?_, ?_⟩
    · rw [← he]
      rcases e with _ | (_ | _ | _ | _) <;> simp [jerrVal]
    · simpa only [valsAll, List.zipWith_cons_cons, List.zipWith_nil_left, Step.vals, h4.1] using h3

/-- Not a string. -/
example {P C : Prog} (hP : IsProgram files P) (hC : IsProgram [clientGo] C) (X : Ext) (hj : X.json = Json.codec) (h : Heap) : ∃ e, e ≠ Val.nil ∧ Returns P C X h [.unmarshal8141 0 (lit "7")] [[.ptr "URN" none, e]] := by
  have hn : Json.codec.unmarshal (lit "7") = none := by decide
  obtain ⟨e, h1, h2⟩ := (C74_json_rejected hP hC X hj h (lit "7") (fun s hs => by rw [hj, hn] at hs; cases hs)).2.2 (fun ⟨s, i, x, h1, h2⟩ => by
    obtain ⟨hk, u, hu, -⟩ := h2.urn
    rw [← decodes_iff hk ⟨u, hu⟩, hn] at h1
    cases h1)
  refine ⟨e, fun he => ?_, h2⟩
  obtain ⟨s, hs, -⟩ := h1.1 he
  rw [hn] at hs
  cases hs

/-! ## Errors -/

/-- The texts of the errors of a new machine. -/
theorem error_does {P : Prog} (hP : IsProgram files P) (X : Ext) (h : Heap) (mode : ParsingMode) (s : Bytes) (k : ErrKind) (c : Int) (hf : X.Fits s)
    (hr : RejectsWith mode s ⟨k, c⟩) :
    ∃ (col : Nat) (h' : Heap), c = (col : Int) ∧ col ≤ s.length ∧
      Does (fun n => client P X n [mode] [.parse s, .error] h)
        ([[.ptr "URN" none, .err (lit (k.template ++ toString col ++ "]"))], [.err (lit (k.template ++ toString col ++ "]"))]], h') := by
  obtain ⟨m, r, hm, hr, hu, he⟩ := hr
  obtain ⟨m', h1, -, h2, -⟩ := parse_ref { startParsingAt := startOf mode, parsingMode := mode, parsingModeSet := true } s (start_startOf mode)
  have hm' := newMachine_mode mode
  rw [hm] at hm'
  cases hm'
  have hc := C32_columns _ ⟨[withParsingMode mode], [], _, _, hm, rfl⟩ s r hr _ he
  dsimp only at hc
  rw [hr] at h1
  cases h1
  obtain ⟨m1, m2, outs, vs, h', e1, e2, e3, e4, -⟩ := C63_history hP X h [mode] [.parse s, .error] (by simp [OpFits, hf])
  rw [List.map_cons, List.map_nil, hm] at e1
  cases e1
  simp only [Machine.execAll, Machine.exec, hr, Run.ok_bind, Run.pure_eq, Run.ok.injEq, Prod.mk.injEq] at e2
  obtain ⟨-, rfl⟩ := e2
  dsimp only at hu he h2
  match vs, e4 with
  | [_, _], ⟨⟨p, rfl, q1⟩, rfl, _⟩ =>
      rw [hu] at q1
      cases (q1 : p = none)
      have hn : ((c.toNat : Nat) : Int) = c := Int.toNat_of_nonneg hc.1
      have ht : lit (k.template ++ toString c.toNat ++ "]") = lit (Err.text ⟨k, c⟩) := by
        rw [Err.text]
        dsimp only
        rw [← hn]
        rfl
      refine ⟨c.toNat, h', hn.symm, by omega, ?_⟩
      rw [ht]
      rw [Machine.error, h2, he] at e3
      exact e3

/-- What `Parse` of a new machine and then `Error` return for a text with a fault: nil and, twice, an error with the message for the first
fault and a column in the text or at its end. -/
theorem C74_error {P : Prog} (hP : IsProgram files P) (X : Ext) (h : Heap) (mode : ParsingMode) (s : Bytes) (k : ErrKind) (hf : X.Fits s)
    (hw : mode = RFC2141Only ∧ Why2141 s k ∨ mode = RFC7643Only ∧ Why7643 s k ∨ mode = RFC8141Only ∧ Why8141 s k) :
    ∃ (col : Nat) (h' : Heap), col ≤ s.length ∧
      Does (fun n => client P X n [mode] [.parse s, .error] h)
        ([[.ptr "URN" none, .err (lit (k.template ++ toString col ++ "]"))], [.err (lit (k.template ++ toString col ++ "]"))]], h') := by
  have hr : RejectsAs mode s k := by
    rcases hw with ⟨rfl, hw⟩ | ⟨rfl, hw⟩ | ⟨rfl, hw⟩
    · exact (C46_2141 s k).2 hw
    · exact (C46_7643 s k).2 hw
    · exact (C46_8141 s k).2 hw
  obtain ⟨c, hr⟩ := hr
  obtain ⟨col, h', -, h1, h2⟩ := error_does hP X h mode s k c hf hr
  exact ⟨col, h', h1, h2⟩

/-- A space after the identifier. -/
example {P : Prog} (hP : IsProgram files P) (X : Ext) (h : Heap) : ∃ (col : Nat) (h' : Heap), col ≤ 7 ∧
    Does (fun n => client P X n [RFC2141Only] [.parse (lit "urn:a :"), .error] h)
      ([[.ptr "URN" none, .err (lit (ErrKind.identifier.template ++ toString col ++ "]"))], [.err (lit (ErrKind.identifier.template ++ toString col ++ "]"))]], h') :=
  C74_error hP X h RFC2141Only (lit "urn:a :") .identifier (X.fits_of (by decide)) (.inl ⟨rfl, (C46_2141 _ _).1 ⟨5, rejectsWith_ref.mpr (by decide)⟩⟩)

end Urn.GoLang
