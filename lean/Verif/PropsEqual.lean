import Verif.EqualAux
/-!
# Properties of `Normalize`, `Equal` and `String`

C08, C16-C20, C36, C40-C43 of `properties.jsonl`.  `uni` is the unmodelled behaviour of
`strings.ToLower` on non-ASCII strings; all theorems hold for every `uni`.
-/
set_option autoImplicit false
namespace Urn
open Spec

/-! ## C08 -/

theorem C08_normalize (mode : ParsingMode) (hm : KnownMode mode) (s : Bytes) (u : URN) (h : ParsesTo mode s u) (uni : Bytes → Bytes) :
    (u.normalize uni).SS = lowerEsc u.SS ∧ (u.normalize uni).ID = lowerAll u.ID ∧ (u.normalize uni).prefix = lit "urn" ∧
      (u.normalize uni).string = lit "urn:" ++ lowerAll u.ID ++ lit ":" ++ lowerEsc u.SS := by
  refine ⟨?_, ?_, ?_, normalize_string hm h uni⟩ <;> rw [normalize_eq hm h]

example (uni : Bytes → Bytes) : (Cases.u8141.normalize uni).string = lit "urn:ab-1:c/D%4a" :=
  (C08_normalize _ Cases.k8141 _ _ Cases.p8141 uni).2.2.2.trans (by decide)

/-- What `lowerEsc` does: `%AB` becomes `%ab`, other letters stay. -/
example : lowerEsc (lit "A%2Fb%AbC%C") = lit "A%2fb%abC%C" := by decide
example : ParsesTo RFC2141Only (lit "urn:Ex:A%2F") (urn2141 (lit "urn") (lit "Ex") (lit "A%2F")) := parsesTo_of (by decide)
example : ParsesTo RFC8141Only (lit "urn:Ex:A%2F?+%2F") (urn8141 (lit "urn") (lit "Ex") (lit "A%2F") (some (lit "%2F")) none none) :=
  parsesTo_of (by decide)

/-! ## C16 -/

theorem equal_iff (uni : Bytes → Bytes) (u v : URN) :
    u.equal uni (some v) = true ↔ toLower uni u.ID = toLower uni v.ID ∧ u.norm = v.norm := by
  simp [URN.equal, URN.normalize]

theorem C16_equivalence (uni : Bytes → Bytes) :
    (∀ u : URN, u.equal uni (some u) = true) ∧
    (∀ u v : URN, u.equal uni (some v) = v.equal uni (some u)) ∧
    (∀ u v w : URN, u.equal uni (some v) = true → v.equal uni (some w) = true → u.equal uni (some w) = true) ∧
    (∀ u : URN, u.equal uni none = false) := by
  refine ⟨fun u => (equal_iff uni u u).mpr ⟨rfl, rfl⟩, ?_, ?_, fun _ => rfl⟩
  · intro u v
    rw [Bool.eq_iff_iff, equal_iff, equal_iff]
    constructor <;> exact fun h => ⟨h.1.symm, h.2.symm⟩
  · intro u v w
    rw [equal_iff, equal_iff, equal_iff]
    exact fun h1 h2 => ⟨h1.1.trans h2.1, h1.2.trans h2.2⟩

/-- `Equal` is not trivial: it holds between different values, and fails. -/
example : (⟨[], lit "A", [], [], .NONE, none, [], [], [], false, false, []⟩ : URN).equal id (some { ID := lit "a" }) = true ∧
    ({ ID := lit "a" } : URN).equal id (some { ID := lit "b" }) = false := by decide

/-! ## C17 -/

/-- For any two of the modes. -/
theorem C17_lexical (mode mode' : ParsingMode) (hm : KnownMode mode) (hm' : KnownMode mode') (s t : Bytes) (u v : URN)
    (h : ParsesTo mode s u) (h' : ParsesTo mode' t v) (uni : Bytes → Bytes) :
    u.equal uni (some v) = true ↔ lowerAll u.ID = lowerAll v.ID ∧ EscEq u.SS v.SS := by
  obtain ⟨h1, h2, _⟩ := parsed_normal hm h
  obtain ⟨h3, h4, _⟩ := parsed_normal hm' h'
  rw [equal_iff, toLower_ascii h2, toLower_ascii h4, h1, h3, lowerEsc_eq_iff slash37 (parsed_seq hm h) (parsed_seq hm' h')]

/-- Equal, and not equal. -/
example (uni : Bytes → Bytes) : Cases.u2141.equal uni (some Cases.v2141) = true ∧ Cases.u2141.equal uni (some Cases.u8141) = false := by
  constructor
  · exact (C17_lexical _ _ Cases.k2141 Cases.k2141 _ _ _ _ Cases.p2141 Cases.q2141 uni).mpr
      ⟨by decide, .pct (by decide) (by decide) (.char (by decide) (.char (by decide) (.char (by decide) .nil)))⟩
  · rw [← Bool.not_eq_true, C17_lexical _ _ Cases.k2141 Cases.k8141 _ _ _ _ Cases.p2141 Cases.p8141 uni]
    exact fun h => absurd h.1 (by decide)

/-! ## C18 -/

/-- RFC 8141: prefix and components do not matter, as receiver or as argument. -/
theorem C18_components (s t pre nid nss pre' : Bytes) (r q f r' q' f' : Option Bytes) (u v : URN)
    (h : Urn8141 s pre nid nss r q f) (h' : Urn8141 t pre' nid nss r' q' f')
    (hu : ParsesTo RFC8141Only s u) (hv : ParsesTo RFC8141Only t v) (uni : Bytes → Bytes) :
    u.equal uni (some v) = true ∧ (∀ x, u.equal uni x = v.equal uni x) ∧ (∀ x : URN, x.equal uni (some u) = x.equal uni (some v)) := by
  have e1 := parsesTo_unique hu (parsesTo_8141.mpr ⟨_, _, _, _, _, _, h, rfl⟩)
  have e2 := parsesTo_unique hv (parsesTo_8141.mpr ⟨_, _, _, _, _, _, h', rfl⟩)
  subst e1 e2
  refine ⟨(equal_iff _ _ _).mpr ⟨rfl, rfl⟩, ?_, ?_⟩
  · intro x; cases x <;> rfl
  · intro x; rfl

example (uni : Bytes → Bytes) : ∃ v, ParsesTo RFC8141Only (lit "URN:Ab-1:c/D%4A#g") v ∧ Cases.u8141.equal uni (some v) = true := by
  have h' : Urn8141 (lit "URN:Ab-1:c/D%4A#g") (lit "URN") (lit "Ab-1") (lit "c/D%4A") none none (some (lit "g")) :=
    { Cases.w8141 with
      eq := by decide
      hpre := by unfold IsUrn; decide
      hr := by simp
      hq := by simp
      hf := by rintro w ⟨⟩; exact .char (by decide) .nil }
  exact ⟨_, parsesTo_8141.mpr ⟨_, _, _, _, _, _, h', rfl⟩,
    (C18_components _ _ _ _ _ _ _ _ _ _ _ _ _ _ Cases.w8141 h' Cases.p8141 (parsesTo_8141.mpr ⟨_, _, _, _, _, _, h', rfl⟩) uni).1⟩

/-- Adding or removing components of a well-formed URN leaves it well-formed, so `C18_components` applies. -/
theorem C18_remove (s pre nid nss : Bytes) (r q f : Option Bytes) (h : Urn8141 s pre nid nss r q f) :
    ∃ v, ParsesTo RFC8141Only (pre ++ lit ":" ++ nid ++ lit ":" ++ nss) v ∧
      ∀ u, ParsesTo RFC8141Only s u → ∀ uni, u.equal uni (some v) = true := by
  have h' : Urn8141 (pre ++ lit ":" ++ nid ++ lit ":" ++ nss) pre nid nss none none none :=
    ⟨by simp [opt, lit], h.hpre, h.hnid, h.hnss, by simp, by simp, by simp⟩
  have hv := parsesTo_8141.mpr ⟨_, _, _, _, _, _, h', rfl⟩
  exact ⟨_, hv, fun u hu uni => (C18_components _ _ _ _ _ _ _ _ _ _ _ _ _ _ h h' hu hv uni).1⟩

example (uni : Bytes → Bytes) : ∃ v, ParsesTo RFC8141Only (lit "urn:Ab-1:c/D%4A") v ∧ Cases.u8141.equal uni (some v) = true := by
  obtain ⟨v, h, h'⟩ := C18_remove _ _ _ _ _ _ _ Cases.w8141
  exact ⟨v, h, h' _ Cases.p8141 uni⟩

/-- RFC 2141 and RFC 7643: the case of the prefix does not matter. -/
theorem C18_prefix (mode : ParsingMode) (hm : mode = RFC2141Only ∨ mode = RFC7643Only) (pre pre' x : Bytes) (u : URN)
    (hp : 58 ∉ pre) (he : lowerAll pre = lowerAll pre') (h : ParsesTo mode (pre ++ 58 :: x) u) :
    ∃ v, ParsesTo mode (pre' ++ 58 :: x) v ∧ ∀ uni,
      u.equal uni (some v) = true ∧ (∀ x, u.equal uni x = v.equal uni x) ∧ (∀ x : URN, x.equal uni (some u) = x.equal uni (some v)) := by
  have key : ∀ a b : URN, a.ID = b.ID → a.norm = b.norm → ∀ uni,
      a.equal uni (some b) = true ∧ (∀ x, a.equal uni x = b.equal uni x) ∧ (∀ x : URN, x.equal uni (some a) = x.equal uni (some b)) := by
    intro a b h1 h2 uni
    have e : a.normalize uni = b.normalize uni := by simp [URN.normalize, h1, h2]
    refine ⟨(equal_iff _ _ _).mpr ⟨by rw [h1], h2⟩, ?_, ?_⟩
    · intro x; cases x
      · rfl
      · simp [URN.equal, e]
    · intro x; simp [URN.equal, e]
  rcases hm with rfl | rfl
  · revert h; intro hw; obtain ⟨p, nid, nss, h, hl, rfl⟩ := parsesTo_2141.mp hw
    have e := h.eq
    rw [List.append_assoc, List.cons_append] at e
    obtain ⟨rfl, rfl⟩ := split_colon e hp h.hpre.noColon
    refine ⟨_, parsesTo_2141.mpr ⟨pre', nid, nss, ⟨by simp, h.hpre.case he, h.hnid, h.hnss⟩, ?_, rfl⟩, key _ _ rfl rfl⟩
    rw [← hl]; apply lookahead_lower; rw [lowerAll_append, lowerAll_append, he]
  · revert h; intro hw; obtain ⟨p, kw, ty, name, tail, other, h, rfl⟩ := parsesTo_7643.mp hw
    obtain ⟨rfl, rfl⟩ := split_colon h.eq hp h.hpre.noColon
    exact ⟨_, parsesTo_7643.mpr ⟨pre', kw, ty, name, tail, other, ⟨rfl, h.hpre.case he, h.hkw, h.hname, h.htail⟩, rfl⟩, key _ _ rfl rfl⟩

example (uni : Bytes → Bytes) : ∃ v, ParsesTo RFC2141Only (lit "uRn:x-Y:%2Fa:B") v ∧ Cases.u2141.equal uni (some v) = true := by
  obtain ⟨v, h, h'⟩ := C18_prefix RFC2141Only (Or.inl rfl) (lit "URN") (lit "uRn") (lit "x-Y:%2Fa:B") Cases.u2141
    (by decide) (by decide) Cases.p2141
  exact ⟨v, h, (h' uni).1⟩

/-! ## C19 -/

/-- `Normalize` is never idempotent on a parsed URN, and its result is never `Equal` to it. -/
theorem C19_refuted (mode : ParsingMode) (hm : KnownMode mode) (s : Bytes) (u : URN) (h : ParsesTo mode s u) (uni : Bytes → Bytes) :
    ((u.normalize uni).normalize uni).string = [] ∧ (u.normalize uni).string ≠ [] ∧
      u.equal uni (some (u.normalize uni)) = false ∧ (u.normalize uni).equal uni (some u) = false := by
  obtain ⟨h1, h2, h3, h4, _⟩ := parsed_normal hm h
  have e := normalize_eq hm h uni
  refine ⟨?_, ?_, ?_, ?_⟩
  · rw [e]; simp [URN.normalize, URN.string]
  · rw [normalize_string hm h]; simp [lit]
  · rw [← Bool.not_eq_true, equal_iff, e, h1]
    simpa using fun _ => lowerEsc_ne h4
  · rw [← Bool.not_eq_true, equal_iff, e, h1]
    simpa using fun _ => lowerEsc_ne h4

example (uni : Bytes → Bytes) : ((Cases.u2141.normalize uni).normalize uni).string = [] :=
  (C19_refuted _ Cases.k2141 _ _ Cases.p2141 uni).1

theorem alpha_lt : ∀ c : UInt8, c < 128 → lower c < 128 := forall_byte (by decide +kernel)

/-- The ID and the prefix do not change any more (the SS is lost, see `C19_refuted`; parsing the text
in between restores it, see `C20_reparse`). -/
theorem C19_id_stable (mode : ParsingMode) (hm : KnownMode mode) (s : Bytes) (u : URN) (h : ParsesTo mode s u) (uni : Bytes → Bytes) :
    ((u.normalize uni).normalize uni).ID = (u.normalize uni).ID ∧
      ((u.normalize uni).normalize uni).prefix = (u.normalize uni).prefix := by
  obtain ⟨h1, h2, h3, h4, _⟩ := parsed_normal hm h
  rw [normalize_eq hm h]
  refine ⟨?_, rfl⟩
  show toLower uni (lowerAll u.ID) = _
  rw [toLower_ascii, lowerAll_idem]
  intro c hc
  obtain ⟨d, hd, rfl⟩ := List.mem_map.mp hc
  exact alpha_lt d (h2 d hd)

example (uni : Bytes → Bytes) : ((Cases.u2141.normalize uni).normalize uni).ID = (Cases.u2141.normalize uni).ID :=
  (C19_id_stable _ Cases.k2141 _ _ Cases.p2141 uni).1

/-! ## C20 -/

theorem Spec.EscEq.toLower {w : Bytes} {cls : UInt8 → Bool} (hc : cls 37 = false) (h : PctSeq cls w) : EscEq w (lowerEsc w) := by
  induction h with
  | nil => exact .nil
  | @char c w h1 _ ih =>
    have hne : c ≠ 37 := by rintro rfl; rw [hc] at h1; simp at h1
    have := lowerEsc_noPct (w := [c]) (t := w) (by simpa using Ne.symm hne)
    simp at this; rw [this]
    exact .char hne ih
  | pct _ _ _ ih => exact .pct (lower_idem _).symm (lower_idem _).symm ih

/-- The normalized text parses in the same mode, to a URN that is `Equal` and normalizes to the same text. -/
theorem C20_reparse (mode : ParsingMode) (hm : KnownMode mode) (s : Bytes) (u : URN) (h : ParsesTo mode s u) (uni : Bytes → Bytes) :
    ∃ v, ParsesTo mode (u.normalize uni).string v ∧ u.equal uni (some v) = true ∧
      (v.normalize uni).string = (u.normalize uni).string ∧ v.string = (u.normalize uni).string := by
  have key : ∀ v, ParsesTo mode (u.normalize uni).string v → v.ID = lowerAll u.ID → v.SS = lowerEsc u.SS →
      u.equal uni (some v) = true ∧ (v.normalize uni).string = (u.normalize uni).string := by
    intro v hv h1 h2
    constructor
    · rw [C17_lexical mode mode hm hm _ _ _ _ h hv, h1, h2, lowerAll_idem]
      exact ⟨rfl, EscEq.toLower slash37 (parsed_seq hm h)⟩
    · rw [normalize_string hm hv, normalize_string hm h, h1, h2, lowerAll_idem, lowerEsc_idem slash37 (parsed_seq hm h)]
  have hstr := normalize_string hm h uni
  suffices ∃ v, ParsesTo mode (u.normalize uni).string v ∧ v.ID = lowerAll u.ID ∧ v.SS = lowerEsc u.SS ∧ v.string = (u.normalize uni).string by
    obtain ⟨v, h1, h2, h3, h4⟩ := this
    obtain ⟨h5, h6⟩ := key v h1 h2 h3
    exact ⟨v, h1, h5, h6, h4⟩
  rw [hstr]
  clear hstr key
  have hurn : IsUrn (lit "urn") := by unfold IsUrn; decide
  rcases hm with rfl | rfl | rfl
  · revert h; intro hw; obtain ⟨pre, nid, nss, h, hl, rfl⟩ := parsesTo_2141.mp hw
    have he := EscEq.toLower (cls := isSss) (by decide) h.hnss.2
    have hn : Urn2141 (lit "urn:" ++ lowerAll nid ++ lit ":" ++ lowerEsc nss) (lit "urn") (lowerAll nid) (lowerEsc nss) :=
      ⟨by simp [lit], hurn, h.hnid.case (lowerAll_idem nid).symm, he.ne h.hnss.1, h.hnss.2.esc he (by decide)⟩
    refine ⟨_, parsesTo_2141.mpr ⟨_, _, _, hn, ?_, rfl⟩, rfl, rfl, urn2141_string hn⟩
    rw [← hl]; apply lookahead_lower
    have : lowerAll pre = lit "urn" := h.hpre
    show lowerAll (lit "urn:" ++ lowerAll nid ++ lit ":" ++ lowerEsc nss) = lowerAll s
    rw [h.eq, hn.eq]
    simp only [lowerAll_append, lowerAll_cons, this, lowerAll_idem, lowerAll_lowerEsc]
    rfl
  · revert h; intro hw; obtain ⟨pre, kw, ty, name, tail, other, h, rfl⟩ := parsesTo_7643.mp hw
    have hss : lowerEsc (urnScim pre kw ty name tail other).SS = kw ++ 58 :: (name ++ lowerEsc tail) := by
      have := lowerEsc_noPct (t := tail) (scim_head_noPct h.hkw h.hname)
      simp at this
      simp [urnScim, this]
    rw [hss]
    have hid : lowerAll (urnScim pre kw ty name tail other).ID = lit "ietf:params:scim" := by
      show lowerAll (lit "ietf:params:scim") = _; decide
    rw [hid]
    have ht : ∃ o, ScimTail (lowerEsc tail) o := by
      cases h.htail with
      | none => exact ⟨[], .none⟩
      | some ho =>
        have := lowerEsc_noPct (w := [58]) (t := other) (by decide)
        simp at this; rw [this]
        have he := EscEq.toLower (cls := isSss) (by decide) ho.2
        exact ⟨_, .some ⟨he.ne ho.1, ho.2.esc he (by decide)⟩⟩
    obtain ⟨o, ho⟩ := ht
    have hn : UrnScim (lit "urn:" ++ lit "ietf:params:scim" ++ lit ":" ++ (kw ++ 58 :: (name ++ lowerEsc tail))) (lit "urn") kw ty name (lowerEsc tail) o :=
      ⟨by simp [lit], hurn, h.hkw, h.hname, ho⟩
    exact ⟨_, parsesTo_7643.mpr ⟨_, _, _, _, _, _, hn, rfl⟩, rfl, rfl, urnScim_string hn⟩
  · revert h; intro hw; obtain ⟨pre, nid, nss, r, q, f, h, rfl⟩ := parsesTo_8141.mp hw
    have he := EscEq.toLower (cls := isPcharSlash) (by decide) (nss8141_seq h.hnss)
    have hn : Urn8141 (lit "urn:" ++ lowerAll nid ++ lit ":" ++ lowerEsc nss) (lit "urn") (lowerAll nid) (lowerEsc nss) none none none :=
      ⟨by simp [lit, opt], hurn, h.hnid.case (lowerAll_idem nid).symm, PctSeq1.esc he (by decide) (by decide) h.hnss, by simp, by simp, by simp⟩
    have hv := parsesTo_8141.mpr ⟨_, _, _, _, _, _, hn, rfl⟩
    refine ⟨_, hv, rfl, rfl, ?_⟩
    show _ = lit "urn:" ++ lowerAll nid ++ lit ":" ++ lowerEsc nss
    rw [C14_exact _ _ _ _ _ _ _ _ hn hv]
    refine ⟨by simp, ?_⟩
    rintro ⟨p, t, e, hp⟩
    have hp3 := hp.length
    have h4 : lowerAll (lowerAll nid) = lowerAll nid := lowerAll_idem nid
    rw [e, lowerAll_append] at h4
    have h5 := List.append_inj_left h4 (by simp [lowerAll])
    rw [e, ← h5, show lowerAll p = lit "urn" from hp]; rfl

example (uni : Bytes → Bytes) : ∃ v, ParsesTo RFC7643Only (Cases.u7643.normalize uni).string v ∧ Cases.u7643.equal uni (some v) = true := by
  obtain ⟨v, h, h', _⟩ := C20_reparse _ Cases.k7643 _ _ Cases.p7643 uni
  exact ⟨v, h, h'⟩

/-- Same mode, or RFC 2141 against RFC 8141: `Equal` is equality of the normalized texts. -/
theorem C20_canonical (mode mode' : ParsingMode) (hm : KnownMode mode) (hm' : KnownMode mode')
    (hs : mode = RFC7643Only ↔ mode' = RFC7643Only) (s t : Bytes) (u v : URN)
    (h : ParsesTo mode s u) (h' : ParsesTo mode' t v) (uni : Bytes → Bytes) :
    u.equal uni (some v) = true ↔ (u.normalize uni).string = (v.normalize uni).string := by
  rw [C17_lexical mode mode' hm hm' _ _ _ _ h h', normalize_string hm h, normalize_string hm' h',
    ← lowerEsc_eq_iff slash37 (parsed_seq hm h) (parsed_seq hm' h')]
  constructor
  · rintro ⟨h1, h2⟩; rw [h1, h2]
  · intro e
    obtain ⟨_, _, _, _, h1⟩ := parsed_normal hm h
    obtain ⟨_, _, _, _, h2⟩ := parsed_normal hm' h'
    rcases h1 with ⟨h1, h3⟩ | ⟨h1, h3⟩
    · rcases h2 with ⟨_, h4⟩ | ⟨h2, _⟩
      · rw [h3, h4] at e ⊢
        exact ⟨rfl, List.append_cancel_left e⟩
      · exact absurd (hs.mp h1) h2
    · rcases h2 with ⟨h2, _⟩ | ⟨_, h4⟩
      · exact absurd (hs.mpr h2) h1
      · simp only [List.append_assoc] at e
        have e := List.append_cancel_left e
        have hc : ∀ w : Bytes, (∀ c ∈ w, isNidChar c = true) → 58 ∉ lowerAll w := by
          intro w hw hc
          obtain ⟨d, hd, e⟩ := List.mem_map.mp hc
          have := lower_inj eq58_lower e
          subst this
          exact absurd (hw 58 hd) (by decide)
        exact split_colon e (hc _ h3) (hc _ h4)

example (uni : Bytes → Bytes) :
    Cases.u2141.equal uni (some Cases.u8141) = true ↔ (Cases.u2141.normalize uni).string = (Cases.u8141.normalize uni).string :=
  C20_canonical _ _ Cases.k2141 Cases.k8141 (by decide) _ _ _ _ Cases.p2141 Cases.p8141 uni

example : (RFC2141Only = RFC7643Only ↔ RFC8141Only = RFC7643Only) := by decide

/-- A SCIM URN and the RFC 2141 reading of the same text have the same normalized text but are not `Equal`. -/
theorem C20_scim_refuted : ∃ u v, ParsesTo RFC7643Only (lit "urn:ietf:params:scim:api:x") u ∧
    ParsesTo RFC2141Only (lit "urn:ietf:params:scim:api:x") v ∧ ∀ uni,
      (u.normalize uni).string = (v.normalize uni).string ∧ u.equal uni (some v) = false := by
  have hu : ParsesTo RFC7643Only (lit "urn:ietf:params:scim:api:x") (urnScim (lit "urn") (lit "api") 2 (lit "x") [] []) := parsesTo_of (by decide)
  have hv : ParsesTo RFC2141Only (lit "urn:ietf:params:scim:api:x") (urn2141 (lit "urn") (lit "ietf") (lit "params:scim:api:x")) := parsesTo_of (by decide)
  refine ⟨_, _, hu, hv, fun uni => ⟨?_, ?_⟩⟩
  · rw [normalize_string (Or.inr (Or.inl rfl)) hu, normalize_string (Or.inl rfl) hv]; decide
  · rw [← Bool.not_eq_true, C17_lexical _ _ (Or.inr (Or.inl rfl)) (Or.inl rfl) _ _ _ _ hu hv]
    have : lowerAll (urnScim (lit "urn") (lit "api") 2 (lit "x") [] []).ID ≠ lowerAll (urn2141 (lit "urn") (lit "ietf") (lit "params:scim:api:x")).ID := by decide
    exact fun h => this h.1

/-! ## C36: RFC 2141 and RFC 8141 -/

theorem C36_agree (s : Bytes) (u v : URN) (hu : ParsesTo RFC2141Only s u) (hv : ParsesTo RFC8141Only s v) (uni : Bytes → Bytes) :
    u.ID = v.ID ∧ u.SS = v.SS ∧ (u.normalize uni).string = (v.normalize uni).string ∧ u.equal uni (some v) = true ∧
      v.getR = [] ∧ v.getQ = [] ∧ v.getF = [] := by
  have key : u.ID = v.ID ∧ u.SS = v.SS ∧ v.getR = [] ∧ v.getQ = [] ∧ v.getF = [] := by
    obtain ⟨p, n, ss, h, _, rfl⟩ := parsesTo_2141.mp hu
    obtain ⟨p', n', ss', r, q, f, h', rfl⟩ := parsesTo_8141.mp hv
    have hb := h.bytes
    have e := h.eq.symm.trans h'.eq
    have ho : ∀ (a : UInt8) (y : Bytes) (o : Option Bytes), okByte2 a = false → (∀ c ∈ opt (a :: y) o, c ∈ s) → o = none := by
      intro a y o ha e
      cases o with
      | none => rfl
      | some w =>
        have := hb a (e a (by simp [opt]))
        rw [ha] at this; simp at this
    have hf : f = none := ho 35 [] f (by decide) (fun c hc => by
      rw [h'.eq]; exact List.mem_append.mpr (Or.inr hc))
    have hq : q = none := ho 63 [61] q (by decide) (fun c hc => by
      rw [h'.eq]; exact List.mem_append.mpr (Or.inl (List.mem_append.mpr (Or.inr hc))))
    have hr : r = none := ho 63 [43] r (by decide) (fun c hc => by
      rw [h'.eq]; exact List.mem_append.mpr (Or.inl (List.mem_append.mpr (Or.inl (List.mem_append.mpr (Or.inr hc))))))
    subst hf hq hr
    simp only [opt, List.append_nil, List.append_assoc, List.cons_append] at e
    obtain ⟨_, e⟩ := split_colon e h.hpre.noColon h'.hpre.noColon
    obtain ⟨rfl, rfl⟩ := split_colon e h.hnid.noColon h'.hnid.noColon
    exact ⟨rfl, rfl, rfl, rfl, rfl⟩
  obtain ⟨h1, h2, h3⟩ := key
  have he : u.equal uni (some v) = true := by
    rw [C17_lexical _ _ (Or.inl rfl) (Or.inr (Or.inr rfl)) _ _ _ _ hu hv, h1, h2]
    exact ⟨rfl, EscEq.refl slash37 (parsed_seq (Or.inr (Or.inr rfl)) hv)⟩
  exact ⟨h1, h2, (C20_canonical _ _ (Or.inl rfl) (Or.inr (Or.inr rfl)) (by decide) _ _ _ _ hu hv uni).mp he, he, h3⟩

example (uni : Bytes → Bytes) : ∃ v, ParsesTo RFC8141Only Cases.s2141 v ∧ Cases.u2141.equal uni (some v) = true := by
  have h : ParsesTo RFC8141Only Cases.s2141 (urn8141 (lit "URN") (lit "x-Y") (lit "%2Fa:B") none none none) := parsesTo_of (by decide)
  exact ⟨_, h, (C36_agree _ _ _ Cases.p2141 h uni).2.2.2.1⟩

theorem C36_inclusion (s pre nid nss : Bytes) (h : Urn2141 s pre nid nss) (h2 : 2 ≤ nid.length) (hl : nid.getLast? ≠ some 45)
    (hi : ¬ ∃ p x t, nid = p ++ 45 :: x :: t ∧ IsUrn p ∧ (isAlpha x = true ∨ x = 48)) :
    ∃ v, ParsesTo RFC8141Only s v ∧ v.ID = nid ∧ v.SS = nss := by
  have hn : Nss8141 nss := by
    obtain ⟨h1, h2⟩ := h.hnss
    have hmono : ∀ c : UInt8, isSss c = true → isPchar c = true := by intro c hc; simp [isPchar, hc]
    have hmono2 : ∀ c : UInt8, isSss c = true → isPcharSlash c = true := by intro c hc; simp [isPcharSlash, isPchar, hc]
    cases h2 with
    | nil => exact absurd rfl h1
    | char h3 h4 => exact .char (hmono _ h3) (h4.mono hmono2)
    | pct h3 h4 h5 => exact .pct h3 h4 (h5.mono hmono2)
  exact ⟨_, parsesTo_8141.mpr ⟨pre, nid, nss, none, none, none,
    ⟨by simp [opt, h.eq], h.hpre, ⟨h2, h.hnid.short, h.hnid.chars, h.hnid.noDash, hl, hi⟩, hn, by simp, by simp, by simp⟩, rfl⟩, rfl, rfl⟩

example : ∃ v, ParsesTo RFC8141Only Cases.s2141 v ∧ v.ID = lit "x-Y" ∧ v.SS = lit "%2Fa:B" := by
  refine C36_inclusion _ _ _ _ Cases.w2141 (by decide) (by decide) ?_
  rintro ⟨p, x, t, e, hp, _⟩
  have := congrArg List.length e
  have := hp.length
  simp [lit] at *; omega

example : Accepts RFC2141Only (lit "urn:ab:c") ∧ Accepts RFC8141Only (lit "urn:ab:c") :=
  ⟨⟨urn2141 (lit "urn") (lit "ab") (lit "c"), parsesTo_of (by decide)⟩,
   ⟨urn8141 (lit "urn") (lit "ab") (lit "c") none none none, parsesTo_of (by decide)⟩⟩

/-! ## C40, C41: case variants -/

theorem C40_case (mode : ParsingMode) (hm : mode = RFC2141Only ∨ mode = RFC8141Only) (pre nid pre' nid' x : Bytes)
    (h1 : 58 ∉ pre) (h2 : 58 ∉ nid) (e1 : lowerAll pre = lowerAll pre') (e2 : lowerAll nid = lowerAll nid') (u : URN)
    (h : ParsesTo mode (pre ++ 58 :: nid ++ 58 :: x) u) :
    ∃ v, ParsesTo mode (pre' ++ 58 :: nid' ++ 58 :: x) v ∧ v.SS = u.SS ∧ ∀ uni, u.equal uni (some v) = true := by
  suffices ∃ v, ParsesTo mode (pre' ++ 58 :: nid' ++ 58 :: x) v ∧ lowerAll u.ID = lowerAll v.ID ∧ v.SS = u.SS by
    obtain ⟨v, h3, h4, h5⟩ := this
    have hk : KnownMode mode := by rcases hm with h | h <;> simp [KnownMode, h]
    refine ⟨v, h3, h5, fun uni => ?_⟩
    rw [C17_lexical _ _ hk hk _ _ _ _ h h3, h5]; exact ⟨h4, EscEq.refl slash37 (parsed_seq hk h)⟩
  rcases hm with rfl | rfl
  · revert h; intro hw; obtain ⟨p, n, ss, h, hl, rfl⟩ := parsesTo_2141.mp hw
    have e := h.eq
    simp only [List.append_assoc, List.cons_append] at e
    obtain ⟨rfl, e'⟩ := split_colon e h1 h.hpre.noColon
    obtain ⟨rfl, rfl⟩ := split_colon e' h2 h.hnid.noColon
    refine ⟨_, parsesTo_2141.mpr ⟨pre', nid', x, ⟨rfl, h.hpre.case e1, h.hnid.case e2, h.hnss⟩, ?_, rfl⟩, e2, rfl⟩
    rw [← hl]; apply lookahead_lower; simp only [lowerAll_append, lowerAll_cons, e1, e2]
  · revert h; intro hw; obtain ⟨p, n, ss, r, q, f, h, rfl⟩ := parsesTo_8141.mp hw
    have e := h.eq
    simp only [List.append_assoc, List.cons_append] at e
    obtain ⟨rfl, e'⟩ := split_colon e h1 h.hpre.noColon
    obtain ⟨rfl, rfl⟩ := split_colon e' h2 h.hnid.noColon
    exact ⟨_, parsesTo_8141.mpr ⟨pre', nid', ss, r, q, f, ⟨by simp, h.hpre.case e1, h.hnid.case e2, h.hnss, h.hr, h.hq, h.hf⟩, rfl⟩, e2, rfl⟩

example (uni : Bytes → Bytes) : ∃ v, ParsesTo RFC2141Only (lit "urn:X-y:%2Fa:B") v ∧ Cases.u2141.equal uni (some v) = true := by
  obtain ⟨v, h, _, h'⟩ := C40_case RFC2141Only (Or.inl rfl) (lit "URN") (lit "x-Y") (lit "urn") (lit "X-y") (lit "%2Fa:B")
    (by decide) (by decide) (by decide) (by decide) Cases.u2141 Cases.p2141
  exact ⟨v, h, h' uni⟩

example : lowerAll (lit "Urn") = lowerAll (lit "URN") ∧ lowerAll (lit "eX-1") = lowerAll (lit "Ex-1") := by decide

/-- Inputs without two colons are rejected, so `C40_case` covers all accepted inputs. -/
theorem C40_colons (mode : ParsingMode) (hm : KnownMode mode) (s : Bytes) (h : Accepts mode s) :
    ∃ pre nid x, s = pre ++ 58 :: nid ++ 58 :: x ∧ 58 ∉ pre ∧ 58 ∉ nid := by
  obtain ⟨u, hw⟩ := h
  rcases hm with rfl | rfl | rfl
  · obtain ⟨p, n, ss, h, hl, rfl⟩ := parsesTo_2141.mp hw
    exact ⟨p, n, ss, h.eq, h.hpre.noColon, h.hnid.noColon⟩
  · obtain ⟨p, kw, ty, name, tail, other, h, rfl⟩ := parsesTo_7643.mp hw
    refine ⟨p, lit "ietf", lit "params:scim" ++ 58 :: (kw ++ 58 :: (name ++ tail)), ?_, h.hpre.noColon, by decide⟩
    rw [h.eq]; simp [lit]
  · obtain ⟨p, n, ss, r, q, f, h, rfl⟩ := parsesTo_8141.mp hw
    refine ⟨p, n, ss ++ opt (lit "?+") r ++ opt (lit "?=") q ++ opt (lit "#") f, ?_, h.hpre.noColon, h.hnid.noColon⟩
    rw [h.eq]; simp

example : ∃ pre nid x, Cases.s7643 = pre ++ 58 :: nid ++ 58 :: x ∧ 58 ∉ pre ∧ 58 ∉ nid :=
  C40_colons _ Cases.k7643 _ ⟨_, Cases.p7643⟩

theorem escEq_prefix {a v w : Bytes} (ha : 37 ∉ a) (h : EscEq v w) : EscEq (a ++ v) (a ++ w) := by
  induction a with
  | nil => exact h
  | cons c a ih => exact .char (fun e => ha (by simp [e])) (ih (fun e => ha (by simp [e])))

theorem C41_escapes (mode : ParsingMode) (hm : KnownMode mode) (s t : Bytes) (he : EscEq s t) :
    (Accepts mode s ↔ Accepts mode t) ∧
    ∀ u v, ParsesTo mode s u → ParsesTo mode t v → ∀ uni, u.equal uni (some v) = true := by
  have key : ∀ s t, EscEq s t → ∀ u, ParsesTo mode s u → ∃ v, ParsesTo mode t v ∧ u.ID = v.ID ∧ EscEq u.SS v.SS := by
    intro s t he u hw
    rcases hm with rfl | rfl | rfl
    · obtain ⟨p, n, ss, h, hl, rfl⟩ := parsesTo_2141.mp hw
      obtain ⟨ss', h', h2⟩ := h.esc he
      refine ⟨_, parsesTo_2141.mpr ⟨p, n, ss', h', ?_, rfl⟩, rfl, h2⟩
      rw [← hl]; exact (lookahead_lower (EscEq_lowerAll he)).symm
    · obtain ⟨p, kw, ty, name, tail, other, h, rfl⟩ := parsesTo_7643.mp hw
      obtain ⟨tail', other', h', h2⟩ := h.esc he
      refine ⟨_, parsesTo_7643.mpr ⟨p, kw, ty, name, tail', other', h', rfl⟩, rfl, ?_⟩
      have := escEq_prefix (scim_head_noPct h.hkw h.hname) h2
      simpa [urnScim] using this
    · obtain ⟨p, n, ss, r, q, f, h, rfl⟩ := parsesTo_8141.mp hw
      obtain ⟨ss', r', q', f', h', h2⟩ := h.esc he
      exact ⟨_, parsesTo_8141.mpr ⟨p, n, ss', r', q', f', h', rfl⟩, rfl, h2⟩
  constructor
  · constructor
    · rintro ⟨u, h⟩; obtain ⟨v, h, _⟩ := key s t he u h; exact ⟨v, h⟩
    · rintro ⟨u, h⟩; obtain ⟨v, h, _⟩ := key t s he.symm u h; exact ⟨v, h⟩
  · intro u v hu hv uni
    obtain ⟨v', hv', h1, h2⟩ := key s t he u hu
    have := parsesTo_unique hv hv'; subst this
    rw [C17_lexical _ _ hm hm _ _ _ _ hu hv]
    exact ⟨by rw [h1], h2⟩

/-- `urn:ex:a%2Fb` and `urn:ex:a%2fb`. -/
example : EscEq (lit "urn:ex:a%2Fb") (lit "urn:ex:a%2fb") := by
  exact escEq_prefix (a := lit "urn:ex:a") (by decide) (.pct (by decide) (by decide) (.char (by decide) .nil))

/-! ## C42: hand built URNs -/

theorem C42_text (id ss : Bytes) :
    (({ ID := id, SS := ss } : URN).string = if id = [] ∨ ss = [] then [] else lit "urn:" ++ id ++ lit ":" ++ ss) ∧
    (({ ID := id, SS := ss } : URN).string = [] ↔ id = [] ∨ ss = []) := by
  by_cases h1 : id = [] <;> by_cases h2 : ss = [] <;> simp [URN.string, h1, h2, lit]

theorem C42_8141 (id ss : Bytes) (h1 : Nid8141 id) (h2 : Nss8141 ss) :
    ∃ v, ParsesTo RFC8141Only ({ ID := id, SS := ss } : URN).string v ∧ v.ID = id ∧ v.SS = ss := by
  rw [(C42_text id ss).1, if_neg (by simp [h1.ne, PctSeq1.ne h2])]
  exact ⟨_, parsesTo_8141.mpr ⟨lit "urn", id, ss, none, none, none,
    ⟨by simp [opt, lit], by unfold IsUrn; decide, h1, h2, by simp, by simp, by simp⟩, rfl⟩, rfl, rfl⟩

example : ∃ v, ParsesTo RFC8141Only (lit "urn:Ab-1:c/D%4A") v ∧ v.ID = lit "Ab-1" :=
  let ⟨v, h, h', _⟩ := C42_8141 (lit "Ab-1") (lit "c/D%4A") Cases.w8141.hnid Cases.w8141.hnss
  ⟨v, h, h'⟩

/-- RFC 2141: the text parses exactly if not (ID starts with `u` or `U` and the fourth byte of `ID:SS` is
a colon), and whatever it parses to has that ID and SS. -/
theorem C42_2141 (id ss : Bytes) (h1 : Nid2141 id) (h2 : Nss2141 ss) :
    (Accepts RFC2141Only ({ ID := id, SS := ss } : URN).string ↔
      ¬ ((id.head? = some 117 ∨ id.head? = some 85) ∧ (id ++ lit ":" ++ ss)[3]? = some 58)) ∧
    ∀ v, ParsesTo RFC2141Only ({ ID := id, SS := ss } : URN).string v → v.ID = id ∧ v.SS = ss := by
  rw [(C42_text id ss).1, if_neg (by simp [h1.nonempty, h2.1])]
  have h : Urn2141 (lit "urn:" ++ id ++ lit ":" ++ ss) (lit "urn") id ss := ⟨by simp [lit], by unfold IsUrn; decide, h1, h2⟩
  have hl : lookahead (lit "urn:" ++ id ++ lit ":" ++ ss) = true ↔
      (id.head? = some 117 ∨ id.head? = some 85) ∧ (id ++ lit ":" ++ ss)[3]? = some 58 := by
    rw [lookahead_iff]
    have e : lit "urn:" ++ id ++ lit ":" ++ ss = [117, 114, 110, 58] ++ (id ++ lit ":" ++ ss) := by simp [lit]
    have e4 : (lit "urn:" ++ id ++ lit ":" ++ ss)[4]? = id.head? := by
      rw [e]
      cases id with
      | nil => exact absurd rfl h1.nonempty
      | cons c t => rfl
    have e7 : (lit "urn:" ++ id ++ lit ":" ++ ss)[7]? = (id ++ lit ":" ++ ss)[3]? := by rw [e]; rfl
    rw [e4, e7]
  constructor
  · rw [← hl]
    constructor
    · rintro ⟨u, hu⟩
      obtain ⟨_, _, _, _, h3, _⟩ := parsesTo_2141.mp hu
      rw [h3]; simp
    · intro h3
      exact ⟨_, parsesTo_2141.mpr ⟨_, _, _, h, by simpa using h3, rfl⟩⟩
  · intro v hv
    obtain ⟨p, n, x, h3, _, rfl⟩ := parsesTo_2141.mp hv
    obtain ⟨_, rfl, rfl⟩ := h.unique h3
    exact ⟨rfl, rfl⟩

example : Accepts RFC2141Only (lit "urn:x-Y:%2Fa:B") :=
  (C42_2141 (lit "x-Y") (lit "%2Fa:B") Cases.w2141.hnid Cases.w2141.hnss).1.mpr (by decide)

/-- The exception is real. -/
theorem C42_refuted : Nid2141 (lit "uci") ∧ Nss2141 (lit "x") ∧
    ¬ Accepts RFC2141Only ({ ID := lit "uci", SS := lit "x" } : URN).string :=
  ⟨⟨by decide, by decide, by decide, by decide, by unfold IsUrn; decide⟩, ⟨by decide, .char (by decide) .nil⟩, not_accepts_of (by decide)⟩

/-! ## C43: injectivity -/

theorem C43_injective (mode : ParsingMode) (hm : mode = RFC2141Only ∨ mode = RFC7643Only) (s t : Bytes) (u v : URN)
    (h : ParsesTo mode s u) (h' : ParsesTo mode t v) (h1 : u.prefix = v.prefix) (h2 : u.ID = v.ID) (h3 : u.SS = v.SS) : s = t := by
  rcases hm with rfl | rfl
  · rw [(C06_pieces s u h).1, (C06_pieces t v h').1, h1, h2, h3]
  · obtain ⟨_, _, _, _, _, e, _⟩ := C10_pieces s u h
    obtain ⟨_, _, _, _, _, e', _⟩ := C10_pieces t v h'
    rw [e, e', h1, h2, h3]

/-- The pieces of these two differ, as their texts do. -/
example : Cases.u2141.prefix ≠ Cases.v2141.prefix ∨ Cases.u2141.ID ≠ Cases.v2141.ID ∨ Cases.u2141.SS ≠ Cases.v2141.SS :=
  Classical.byContradiction fun h => by
    simp only [ne_eq, not_or, Classical.not_not] at h
    exact absurd (C43_injective _ (Or.inl rfl) _ _ _ _ Cases.p2141 Cases.q2141 h.1 h.2.1 h.2.2) (by decide)

/-- In RFC 8141 mode the components are needed too, and a present empty fragment is still not told
from an absent one, nor are prefixes before an identifier starting with `urn-` (C14). -/
theorem C43_injective_8141 (s t pre pre' nid nid' nss nss' : Bytes) (r q f r' q' f' : Option Bytes) (u v : URN)
    (h : Urn8141 s pre nid nss r q f) (h' : Urn8141 t pre' nid' nss' r' q' f') (hf : f ≠ some []) (hf' : f' ≠ some [])
    (hp : ¬ ∃ p t, nid = p ++ 45 :: t ∧ IsUrn p) (hp' : ¬ ∃ p t, nid' = p ++ 45 :: t ∧ IsUrn p)
    (hu : ParsesTo RFC8141Only s u) (hv : ParsesTo RFC8141Only t v) (e : u.string = v.string) : s = t := by
  have h1 := (C14_exact _ _ _ _ _ _ _ _ h hu).mpr ⟨hf, fun h => absurd h hp⟩
  have h2 := (C14_exact _ _ _ _ _ _ _ _ h' hv).mpr ⟨hf', fun h => absurd h hp'⟩
  rw [← h1, ← h2, e]

example (t pre nid nss : Bytes) (r q f : Option Bytes) (v : URN) (h : Urn8141 t pre nid nss r q f) (hf : f ≠ some [])
    (hp : ¬ ∃ p t, nid = p ++ 45 :: t ∧ IsUrn p) (hv : ParsesTo RFC8141Only t v) (e : Cases.u8141.string = v.string) :
    Cases.s8141 = t :=
  C43_injective_8141 _ _ _ _ _ _ _ _ _ _ _ _ _ _ _ _ Cases.w8141 h (by decide) hf
    (by
      rintro ⟨p, t, e, hp⟩
      obtain ⟨a, b, c, rfl, _⟩ := isUrn_iff.mp hp
      simp [lit] at e) hp Cases.p8141 hv e

theorem nss_append {a b : Bytes} (ha : Nss2141 a) (hb : Nss2141 b) : Nss2141 (a ++ b) :=
  ⟨by simp [ha.1], ha.2.append hb.2⟩

/-- Concatenation of NSSs in RFC 2141 mode: the new text is accepted exactly if not (the identifier
starts with `u` or `U` and byte 7 of the new text is a colon), and then its SS is the concatenation. -/
theorem C43_concat (pre nid a b : Bytes) (u v : URN) (hp : 58 ∉ pre) (hn : 58 ∉ nid)
    (ha : ParsesTo RFC2141Only (pre ++ 58 :: nid ++ 58 :: a) u) (hb : ParsesTo RFC2141Only (pre ++ 58 :: nid ++ 58 :: b) v) :
    (Accepts RFC2141Only (pre ++ 58 :: nid ++ 58 :: (a ++ b)) ↔
      ¬ ((nid.head? = some 117 ∨ nid.head? = some 85) ∧ (pre ++ 58 :: nid ++ 58 :: (a ++ b))[7]? = some 58)) ∧
    ∀ w, ParsesTo RFC2141Only (pre ++ 58 :: nid ++ 58 :: (a ++ b)) w → w.SS = a ++ b ∧ w.ID = nid := by
  obtain ⟨p, n, ss, h, _, rfl⟩ := parsesTo_2141.mp ha
  obtain ⟨p', n', ss', h', _, rfl⟩ := parsesTo_2141.mp hb
  have e := h.eq
  simp only [List.append_assoc, List.cons_append] at e
  obtain ⟨rfl, e1⟩ := split_colon e hp h.hpre.noColon
  obtain ⟨rfl, rfl⟩ := split_colon e1 hn h.hnid.noColon
  have e' := h'.eq
  simp only [List.append_assoc, List.cons_append] at e'
  obtain ⟨rfl, e2⟩ := split_colon e' hp h'.hpre.noColon
  obtain ⟨rfl, rfl⟩ := split_colon e2 hn h'.hnid.noColon
  have hw : Urn2141 (pre ++ 58 :: nid ++ 58 :: (a ++ b)) pre nid (a ++ b) := ⟨rfl, h.hpre, h.hnid, nss_append h.hnss h'.hnss⟩
  have e4 : (pre ++ 58 :: nid ++ 58 :: (a ++ b))[4]? = nid.head? := by
    obtain ⟨x, y, z, rfl, _⟩ := isUrn_iff.mp h.hpre
    cases nid with
    | nil => exact absurd rfl h.hnid.nonempty
    | cons c t => simp
  constructor
  · rw [C05_exact, e4]
    exact and_iff_right ⟨_, _, _, hw⟩
  · intro w h1
    obtain ⟨p2, n2, x, h2, _, rfl⟩ := parsesTo_2141.mp h1
    obtain ⟨_, rfl, rfl⟩ := hw.unique h2
    exact ⟨rfl, rfl⟩

example : Accepts RFC2141Only (lit "URN:x-Y:%2Fa:B%2Fa:B") :=
  (C43_concat (lit "URN") (lit "x-Y") (lit "%2Fa:B") (lit "%2Fa:B") _ _ (by decide) (by decide) Cases.p2141 Cases.p2141).1.mpr
    (by decide)

/-- The exception is real. -/
theorem C43_concat_refuted : Accepts RFC2141Only (lit "urn:u:x") ∧ Accepts RFC2141Only (lit "urn:u::c") ∧
    ¬ Accepts RFC2141Only (lit "urn:u:x:c") :=
  ⟨⟨urn2141 (lit "urn") (lit "u") (lit "x"), parsesTo_of (by decide)⟩, ⟨urn2141 (lit "urn") (lit "u") (lit ":c"), parsesTo_of (by decide)⟩,
   not_accepts_of (by decide)⟩

/-- In RFC 8141 mode there is no exception. -/
theorem C43_concat_8141 (pre nid a b : Bytes) (h : Urn8141 (pre ++ 58 :: nid ++ 58 :: a) pre nid a none none none)
    (h' : Urn8141 (pre ++ 58 :: nid ++ 58 :: b) pre nid b none none none) :
    ∃ w, ParsesTo RFC8141Only (pre ++ 58 :: nid ++ 58 :: (a ++ b)) w ∧ w.SS = a ++ b ∧ w.ID = nid := by
  have hn : Nss8141 (a ++ b) := by
    cases h.hnss with
    | char h1 h2 => exact .char h1 (h2.append (nss8141_seq h'.hnss))
    | pct h1 h2 h3 => exact .pct h1 h2 (h3.append (nss8141_seq h'.hnss))
  exact ⟨_, parsesTo_8141.mpr ⟨pre, nid, a ++ b, none, none, none, ⟨by simp [opt], h.hpre, h.hnid, hn, by simp, by simp, by simp⟩, rfl⟩, rfl, rfl⟩

example : ∃ w, ParsesTo RFC8141Only (lit "urn:Ab-1:c/D%4Ac/D%4A") w ∧ w.SS = lit "c/D%4Ac/D%4A" := by
  have h : Urn8141 (lit "urn:Ab-1:c/D%4A") (lit "urn") (lit "Ab-1") (lit "c/D%4A") none none none :=
    { Cases.w8141 with eq := by decide, hr := by simp, hq := by simp, hf := by simp }
  obtain ⟨w, h1, h2, _⟩ := C43_concat_8141 (lit "urn") (lit "Ab-1") (lit "c/D%4A") (lit "c/D%4A") h h
  exact ⟨w, h1, h2⟩

end Urn
