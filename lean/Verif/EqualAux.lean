import Verif.PropsParse
/-!
# Helper lemmas for `Normalize` and `Equal`
-/
set_option autoImplicit false
namespace Urn
open Spec

/-! ## The normal form of a parsed URN -/

theorem lowerEsc_noPct {w t : Bytes} (h : 37 ∉ w) : lowerEsc (w ++ t) = w ++ lowerEsc t := by
  induction w with
  | nil => rfl
  | cons c w ih =>
    have h1 : c ≠ 37 := fun e => h (by simp [e])
    rw [List.cons_append]
    have : lowerEsc (c :: (w ++ t)) = c :: lowerEsc (w ++ t) := by
      rw [lowerEsc.eq_2]
      intro a b w' e; exact absurd e h1
    rw [this, ih (fun e => h (by simp [e]))]; rfl

theorem alnum_ne37 : ∀ c : UInt8, isAlnum c = true → c ≠ 37 := forall_byte (by decide +kernel)

theorem scim_head_noPct {kw name : Bytes} {ty : SchemaType} (hk : ScimType kw ty) (hn : ScimName name) : 37 ∉ kw ++ 58 :: name := by
  simp only [List.mem_append, List.mem_cons, not_or]
  exact ⟨fun h => alnum_ne37 _ (hk.bytes _ h) rfl, by decide, fun h => alnum_ne37 _ (hn.2 _ h) rfl⟩

/-- What `Normalize` sees of a parsed URN. -/
theorem parsed_normal {mode : ParsingMode} (hm : KnownMode mode) {s : Bytes} {u : URN} (h : ParsesTo mode s u) :
    u.norm = lowerEsc u.SS ∧ (∀ c ∈ u.ID, c < 128) ∧ u.ID ≠ [] ∧ u.SS ≠ [] ∧
      (mode = RFC7643Only ∧ u.ID = lit "ietf:params:scim" ∨ mode ≠ RFC7643Only ∧ ∀ c ∈ u.ID, isNidChar c = true) := by
  rcases hm with rfl | rfl | rfl
  · revert h; intro hw; obtain ⟨pre, nid, nss, h, _, rfl⟩ := parsesTo_2141.mp hw
    exact ⟨rfl, fun c hc => nid_ascii c (h.hnid.chars c hc), h.hnid.nonempty, h.hnss.1, Or.inr ⟨by decide, h.hnid.chars⟩⟩
  · revert h; intro hw; obtain ⟨pre, kw, ty, name, tail, other, h, rfl⟩ := parsesTo_7643.mp hw
    refine ⟨?_, ?_, by simp [urnScim, lit], by simp [urnScim], Or.inl ⟨rfl, rfl⟩⟩
    · have := lowerEsc_noPct (t := tail) (scim_head_noPct h.hkw h.hname)
      simp at this
      simp [urnScim, this]
    · show ∀ c ∈ lit "ietf:params:scim", c < 128
      decide
  · revert h; intro hw; obtain ⟨pre, nid, nss, r, q, f, h, rfl⟩ := parsesTo_8141.mp hw
    exact ⟨rfl, fun c hc => nid_ascii c (h.hnid.chars c hc), h.hnid.ne, PctSeq1.ne h.hnss, Or.inr ⟨by decide, h.hnid.chars⟩⟩

theorem plain_seq {cls : UInt8 → Bool} {w t : Bytes} (hw : ∀ c ∈ w, cls c = true) (ht : PctSeq cls t) : PctSeq cls (w ++ t) := by
  induction w with
  | nil => exact ht
  | cons c w ih => exact .char (hw c (by simp)) (ih (fun d hd => hw d (by simp [hd])))

theorem sss_slash : ∀ c : UInt8, isSss c = true → isPcharSlash c = true := by intro c hc; simp [isPcharSlash, isPchar, hc]
theorem alnum_slash : ∀ c : UInt8, isAlnum c = true → isPcharSlash c = true := by intro c hc; simp [isPcharSlash, isPchar, isSss, hc]

/-- The SS of a parsed URN has complete escapes. -/
theorem parsed_seq {mode : ParsingMode} (hm : KnownMode mode) {s : Bytes} {u : URN} (h : ParsesTo mode s u) : PctSeq isPcharSlash u.SS := by
  rcases hm with rfl | rfl | rfl
  · revert h; intro hw; obtain ⟨pre, nid, nss, h, _, rfl⟩ := parsesTo_2141.mp hw
    exact h.hnss.2.mono sss_slash
  · revert h; intro hw; obtain ⟨pre, kw, ty, name, tail, other, h, rfl⟩ := parsesTo_7643.mp hw
    refine plain_seq (fun c hc => alnum_slash c (h.hkw.bytes c hc)) (.char (by decide) (plain_seq (fun c hc => alnum_slash c (h.hname.2 c hc)) ?_))
    cases h.htail with
    | none => exact .nil
    | some ho => exact .char (by decide) (ho.2.mono sss_slash)
  · revert h; intro hw; obtain ⟨pre, nid, nss, r, q, f, h, rfl⟩ := parsesTo_8141.mp hw
    exact nss8141_seq h.hnss

theorem slash37 : isPcharSlash 37 = false := by decide

theorem Spec.EscEq.refl {cls : UInt8 → Bool} (hc : cls 37 = false) {w : Bytes} (h : PctSeq cls w) : EscEq w w :=
  (lowerEsc_eq_iff hc h h).mp rfl

theorem lowerEsc_ne {w : Bytes} (h : w ≠ []) : lowerEsc w ≠ [] := by
  unfold lowerEsc; split <;> simp at h ⊢

theorem normalize_eq {mode : ParsingMode} (hm : KnownMode mode) {s : Bytes} {u : URN} (h : ParsesTo mode s u) (uni : Bytes → Bytes) :
    u.normalize uni = { «prefix» := lit "urn", ID := lowerAll u.ID, SS := lowerEsc u.SS } := by
  obtain ⟨h1, h2, _⟩ := parsed_normal hm h
  simp [URN.normalize, toLower_ascii h2, h1]

theorem lowerAll_ne {w : Bytes} (h : w ≠ []) : lowerAll w ≠ [] := by simpa [lowerAll] using h

theorem normalize_string {mode : ParsingMode} (hm : KnownMode mode) {s : Bytes} {u : URN} (h : ParsesTo mode s u) (uni : Bytes → Bytes) :
    (u.normalize uni).string = lit "urn:" ++ lowerAll u.ID ++ lit ":" ++ lowerEsc u.SS := by
  obtain ⟨h1, h2, h3, h4, _⟩ := parsed_normal hm h
  rw [normalize_eq hm h, string_eq (by simp [lit]) (lowerAll_ne h3) (lowerEsc_ne h4)]
  simp [lit]

/-! ## Case insensitivity of the grammars -/

theorem lowerAll_append (v w : Bytes) : lowerAll (v ++ w) = lowerAll v ++ lowerAll w := by simp [lowerAll]
theorem lowerAll_cons (c : UInt8) (w : Bytes) : lowerAll (c :: w) = lower c :: lowerAll w := rfl

theorem lower_idem : ∀ c : UInt8, lower (lower c) = lower c := forall_byte (by decide +kernel)
theorem lowerAll_idem (w : Bytes) : lowerAll (lowerAll w) = lowerAll w := by
  simp [lowerAll, lower_idem]

theorem lower_pres (p : UInt8 → Bool) (h : ∀ c : UInt8, p (lower c) = p c) {c d : UInt8} (e : lower c = lower d) : p c = p d := by
  rw [← h c, ← h d, e]

theorem nidChar_lower : ∀ c : UInt8, isNidChar (lower c) = isNidChar c := forall_byte (by decide +kernel)
theorem alnum_lower : ∀ c : UInt8, isAlnum (lower c) = isAlnum c := forall_byte (by decide +kernel)
theorem alpha_lower : ∀ c : UInt8, isAlpha (lower c) = isAlpha c := forall_byte (by decide +kernel)
theorem eq45_lower : ∀ c : UInt8, (lower c == 45) = (c == 45) := forall_byte (by decide +kernel)
theorem eq48_lower : ∀ c : UInt8, (lower c == 48) = (c == 48) := forall_byte (by decide +kernel)
theorem eq37_lower : ∀ c : UInt8, (lower c == 37) = (c == 37) := forall_byte (by decide +kernel)
theorem eq58_lower : ∀ c : UInt8, (lower c == 58) = (c == 58) := forall_byte (by decide +kernel)
theorem eq63_lower : ∀ c : UInt8, (lower c == 63) = (c == 63) := forall_byte (by decide +kernel)
theorem eq43_lower : ∀ c : UInt8, (lower c == 43) = (c == 43) := forall_byte (by decide +kernel)
theorem eq61_lower : ∀ c : UInt8, (lower c == 61) = (c == 61) := forall_byte (by decide +kernel)
theorem eq47_lower : ∀ c : UInt8, (lower c == 47) = (c == 47) := forall_byte (by decide +kernel)

/-- A byte that is not a letter is determined by its lower case form. -/
theorem lower_inj {d c : UInt8} (hd : ∀ c : UInt8, (lower c == d) = (c == d)) (e : lower c = d) : c = d := by
  have := hd c; simp [e] at this; exact this

theorem lowerAll_len {v w : Bytes} (h : lowerAll v = lowerAll w) : v.length = w.length := by
  have := congrArg List.length h; simpa [lowerAll] using this

theorem lowerAll_all {p : UInt8 → Bool} (hp : ∀ c : UInt8, p (lower c) = p c) {v w : Bytes} (h : lowerAll v = lowerAll w)
    (hv : ∀ c ∈ v, p c = true) : ∀ c ∈ w, p c = true := by
  induction v generalizing w with
  | nil => cases w with
    | nil => simp
    | cons => simp [lowerAll] at h
  | cons a v ih =>
    cases w with
    | nil => simp
    | cons b w =>
      simp [lowerAll] at h
      intro c hc
      rcases List.mem_cons.mp hc with rfl | hc
      · rw [← lower_pres p hp h.1]; exact hv a (by simp)
      · exact ih (by simpa [lowerAll] using h.2) (fun c hc => hv c (by simp [hc])) c hc

theorem lowerAll_head {d : UInt8} (hd : ∀ c : UInt8, (lower c == d) = (c == d)) {v w : Bytes} (h : lowerAll v = lowerAll w) :
    v.head? = some d → w.head? = some d := by
  cases v with
  | nil => simp
  | cons a v =>
    cases w with
    | nil => simp [lowerAll] at h
    | cons b w =>
      simp [lowerAll] at h
      rintro h1; simp at h1; subst h1
      have := lower_pres (· == a) hd h.1
      simp at this; simp [this]

theorem lowerAll_reverse (w : Bytes) : lowerAll w.reverse = (lowerAll w).reverse := by simp [lowerAll]

theorem lowerAll_last {d : UInt8} (hd : ∀ c : UInt8, (lower c == d) = (c == d)) {v w : Bytes} (h : lowerAll v = lowerAll w) :
    v.getLast? = some d → w.getLast? = some d := by
  rw [← List.head?_reverse, ← List.head?_reverse]
  exact lowerAll_head hd (by rw [lowerAll_reverse, lowerAll_reverse, h])

/-- Splitting one of two strings equal up to case splits the other. -/
theorem lowerAll_split {a b w : Bytes} (h : lowerAll w = lowerAll (a ++ b)) :
    ∃ a' b', w = a' ++ b' ∧ lowerAll a' = lowerAll a ∧ lowerAll b' = lowerAll b := by
  have hl := lowerAll_len h
  rw [lowerAll_append] at h
  refine ⟨w.take a.length, w.drop a.length, by simp, ?_⟩
  have e : lowerAll w = lowerAll (w.take a.length) ++ lowerAll (w.drop a.length) := by
    rw [← lowerAll_append]; simp
  rw [e] at h
  have hlen : (lowerAll (w.take a.length)).length = (lowerAll a).length := by
    simp [lowerAll] at hl ⊢; omega
  exact List.append_inj h hlen

theorem lowerAll_split_cons {c : UInt8} {b w : Bytes} (h : lowerAll w = lowerAll (c :: b)) :
    ∃ c' b', w = c' :: b' ∧ lower c' = lower c ∧ lowerAll b' = lowerAll b := by
  cases w with
  | nil => simp [lowerAll] at h
  | cons c' b' => simp [lowerAll] at h; exact ⟨c', b', rfl, h.1, by simpa [lowerAll] using h.2⟩

theorem Spec.IsUrn.case {v w : Bytes} (h : lowerAll v = lowerAll w) (hv : IsUrn v) : IsUrn w := by
  rw [IsUrn, ← h]; exact hv

theorem Spec.Nid2141.case {v w : Bytes} (h : lowerAll v = lowerAll w) (hv : Nid2141 v) : Nid2141 w := by
  refine ⟨?_, by rw [← lowerAll_len h]; exact hv.short, lowerAll_all nidChar_lower h hv.chars, ?_, ?_⟩
  · rintro rfl
    have := lowerAll_len h; simp at this; exact hv.nonempty this
  · intro e; exact hv.noDash (lowerAll_head eq45_lower h.symm e)
  · intro e; exact hv.notUrn (e.case h.symm)

theorem Spec.Nid8141.case {v w : Bytes} (h : lowerAll v = lowerAll w) (hv : Nid8141 v) : Nid8141 w := by
  refine ⟨by rw [← lowerAll_len h]; exact hv.two, by rw [← lowerAll_len h]; exact hv.short,
    lowerAll_all nidChar_lower h hv.chars, ?_, ?_, ?_⟩
  · intro e; exact hv.first (lowerAll_head eq45_lower h.symm e)
  · intro e; exact hv.last (lowerAll_last eq45_lower h.symm e)
  · rintro ⟨p, x, t, rfl, hp, hx⟩
    obtain ⟨p', b, rfl, h1, h2⟩ := lowerAll_split h
    obtain ⟨c, b, rfl, h3, h4⟩ := lowerAll_split_cons h2
    obtain ⟨x', t', rfl, h5, h6⟩ := lowerAll_split_cons h4
    have hc : c = 45 := lower_inj eq45_lower (by rw [h3]; decide)
    subst hc
    refine hv.informal ⟨p', x', t', rfl, hp.case h1.symm, ?_⟩
    rcases hx with hx | rfl
    · left; rw [lower_pres isAlpha alpha_lower h5]; exact hx
    · right; exact lower_inj eq48_lower (by rw [h5]; decide)

/-! ## Case of percent escapes -/

theorem Spec.EscEq.symm {v w : Bytes} (h : EscEq v w) : EscEq w v := by
  induction h with
  | nil => exact .nil
  | char hc _ ih => exact .char hc ih
  | pct h1 h2 _ ih => exact .pct h1.symm h2.symm ih

theorem Spec.PctSeq.esc {cls : UInt8 → Bool} {v w : Bytes} (h : EscEq v w) (hc : cls 37 = false) (hv : PctSeq cls v) : PctSeq cls w := by
  induction h with
  | nil => exact .nil
  | char hc' _ ih =>
    cases hv with
    | char h1 h2 => exact .char h1 (ih h2)
    | pct => exact absurd rfl hc'
  | pct h1 h2 _ ih =>
    cases hv with
    | char h3 h4 => rw [hc] at h3; simp at h3
    | pct h3 h4 h5 =>
      exact .pct (by rw [← lower_pres isAlnum alnum_lower h1]; exact h3) (by rw [← lower_pres isAlnum alnum_lower h2]; exact h4) (ih h5)

theorem Spec.PctSeq1.esc {first cls : UInt8 → Bool} {v w : Bytes} (h : EscEq v w) (hf : first 37 = false) (hc : cls 37 = false)
    (hv : PctSeq1 first cls v) : PctSeq1 first cls w := by
  cases h with
  | nil => cases hv
  | char hc' h =>
    cases hv with
    | char h1 h2 => exact .char h1 (h2.esc h hc)
    | pct => exact absurd rfl hc'
  | pct h1 h2 h =>
    cases hv with
    | char h3 h4 => rw [hf] at h3; simp at h3
    | pct h3 h4 h5 =>
      exact .pct (by rw [← lower_pres isAlnum alnum_lower h1]; exact h3) (by rw [← lower_pres isAlnum alnum_lower h2]; exact h4) (h5.esc h hc)

theorem Spec.EscEq.ne {v w : Bytes} (h : EscEq v w) (hv : v ≠ []) : w ≠ [] := by cases h <;> simp at hv ⊢

/-- A complete first part of one string cuts a complete first part off the other. -/
theorem Spec.EscEq.cut {cls : UInt8 → Bool} {a b w : Bytes} (h : EscEq (a ++ b) w) (hc : cls 37 = false) (ha : PctSeq cls a) :
    ∃ a' b', w = a' ++ b' ∧ EscEq a a' ∧ EscEq b b' := by
  induction ha generalizing w with
  | nil => exact ⟨[], w, rfl, .nil, h⟩
  | @char c v h1 _ ih =>
    rw [List.cons_append] at h
    generalize hv : v ++ b = x at h
    cases h with
    | char h2 h3 =>
      subst hv
      obtain ⟨a', b', rfl, h4, h5⟩ := ih h3
      exact ⟨_ :: a', b', rfl, .char h2 h4, h5⟩
    | pct => rw [hc] at h1; simp at h1
  | pct _ _ _ ih =>
    rw [List.cons_append, List.cons_append, List.cons_append] at h
    cases h with
    | char h2 => exact absurd rfl h2
    | pct h2 h3 h4 =>
      obtain ⟨a', b', rfl, h5, h6⟩ := ih h4
      exact ⟨_ :: _ :: _ :: a', b', rfl, .pct h2 h3 h5, h6⟩

theorem Spec.EscEq.plain {a w : Bytes} (h : EscEq a w) (ha : 37 ∉ a) : w = a := by
  induction h with
  | nil => rfl
  | char _ _ ih => rw [ih (fun e => ha (by simp [e]))]
  | pct => exact absurd (by simp) ha

/-- A first part without escapes is the same in both. -/
theorem Spec.EscEq.cutPlain {a b w : Bytes} (h : EscEq (a ++ b) w) (ha : 37 ∉ a) : ∃ b', w = a ++ b' ∧ EscEq b b' := by
  have : PctSeq (fun c => c != 37) a := by
    clear h
    induction a with
    | nil => exact .nil
    | cons c a ih => exact .char (by simpa using fun e => ha (by simp [e])) (ih (fun e => ha (by simp [e])))
  obtain ⟨a', b', rfl, h1, h2⟩ := h.cut (by decide) this
  rw [h1.plain ha]; exact ⟨b', rfl, h2⟩

theorem Spec.RComp.esc {v w : Bytes} (h : EscEq v w) (hv : RComp v) : RComp w := by
  have hl := EscEq_lowerAll h
  refine ⟨PctSeq1.esc h (by decide) (by decide) hv.comp, ?_, ?_⟩
  · rintro a b rfl
    obtain ⟨a', x, rfl, h1, h2⟩ := lowerAll_split hl
    obtain ⟨c, x, rfl, h3, h4⟩ := lowerAll_split_cons h2
    obtain ⟨d, b', rfl, h5, h6⟩ := lowerAll_split_cons h4
    have hc : c = 63 := lower_inj eq63_lower (by rw [h3]; decide)
    have hd : d = 43 := lower_inj eq43_lower (by rw [h5]; decide)
    subst hc hd
    exact lowerAll_head eq47_lower h6 (hv.plus a' b' rfl)
  · rintro a b rfl
    obtain ⟨a', x, rfl, h1, h2⟩ := lowerAll_split hl
    obtain ⟨c, x, rfl, h3, h4⟩ := lowerAll_split_cons h2
    obtain ⟨d, b', rfl, h5, h6⟩ := lowerAll_split_cons h4
    have hc : c = 63 := lower_inj eq63_lower (by rw [h3]; decide)
    have hd : d = 61 := lower_inj eq61_lower (by rw [h5]; decide)
    subst hc hd
    rcases hv.eq a' b' rfl with rfl | e | e
    · left; have := lowerAll_len h6; simp at this; exact List.eq_nil_of_length_eq_zero this.symm
    · right; left; exact lowerAll_head eq47_lower h6 e
    · right; right; exact lowerAll_head eq63_lower h6 e

theorem Spec.QComp.esc {v w : Bytes} (h : EscEq v w) (hv : QComp v) : QComp w := by
  have hl := EscEq_lowerAll h
  refine ⟨PctSeq1.esc h (by decide) (by decide) hv.comp, ?_⟩
  rintro a b rfl
  obtain ⟨a', x, rfl, h1, h2⟩ := lowerAll_split hl
  obtain ⟨c, x, rfl, h3, h4⟩ := lowerAll_split_cons h2
  obtain ⟨d, b', rfl, h5, h6⟩ := lowerAll_split_cons h4
  have hc : c = 63 := lower_inj eq63_lower (by rw [h3]; decide)
  have hd : d = 61 := lower_inj eq61_lower (by rw [h5]; decide)
  subst hc hd
  exact lowerAll_head eq47_lower h6 (hv.eq a' b' rfl)

theorem alpha_ne37 : ∀ c : UInt8, isAlpha c = true → c ≠ 37 := forall_byte (by decide +kernel)
theorem nid_ne37 : ∀ c : UInt8, isNidChar c = true → c ≠ 37 := forall_byte (by decide +kernel)

/-- Two strings that are the same but for the case inside escapes. -/
theorem Spec.Urn2141.esc {s t pre nid nss : Bytes} (h : Urn2141 s pre nid nss) (he : EscEq s t) :
    ∃ nss', Urn2141 t pre nid nss' ∧ EscEq nss nss' := by
  have e := h.eq
  have hp : 37 ∉ pre ++ 58 :: nid ++ [58] := by
    simp only [List.mem_append, List.mem_cons, not_or, List.not_mem_nil, not_false_eq_true, and_true]
    exact ⟨⟨fun h1 => alpha_ne37 _ (h.hpre.alpha _ h1) rfl, by decide, fun h1 => nid_ne37 _ (h.hnid.chars _ h1) rfl⟩, by decide⟩
  rw [e] at he
  have he' : EscEq ((pre ++ 58 :: nid ++ [58]) ++ nss) t := by simpa using he
  obtain ⟨nss', rfl, h2⟩ := he'.cutPlain hp
  exact ⟨nss', ⟨by simp, h.hpre, h.hnid, h2.ne h.hnss.1, h.hnss.2.esc h2 (by decide)⟩, h2⟩

theorem Spec.UrnScim.esc {s t pre kw name tail other : Bytes} {ty : SchemaType} (h : UrnScim s pre kw ty name tail other) (he : EscEq s t) :
    ∃ tail' other', UrnScim t pre kw ty name tail' other' ∧ EscEq tail tail' := by
  have e := h.eq
  have hp : 37 ∉ pre ++ 58 :: (lit "ietf:params:scim" ++ 58 :: (kw ++ 58 :: name)) := by
    have := scim_head_noPct h.hkw h.hname
    rw [List.mem_append, List.mem_cons, List.mem_append, List.mem_cons]
    simp only [not_or]
    exact ⟨fun h1 => alpha_ne37 _ (h.hpre.alpha _ h1) rfl, by decide, by decide, by decide, this⟩
  rw [e] at he
  have he' : EscEq ((pre ++ 58 :: (lit "ietf:params:scim" ++ 58 :: (kw ++ 58 :: name))) ++ tail) t := by simpa using he
  obtain ⟨tail', rfl, h2⟩ := he'.cutPlain hp
  cases h.htail with
  | none =>
    cases h2
    exact ⟨[], [], ⟨by simp, h.hpre, h.hkw, h.hname, .none⟩, .nil⟩
  | some ho =>
    cases h2 with
    | char h3 h4 => exact ⟨_, _, ⟨by simp, h.hpre, h.hkw, h.hname, .some ⟨h4.ne ho.1, ho.2.esc h4 (by decide)⟩⟩, .char h3 h4⟩

theorem esc_opt {cls : UInt8 → Bool} (hcls : cls 37 = false) {C : Bytes → Prop} (hC : ∀ w, C w → PctSeq cls w)
    (hesc : ∀ v w, EscEq v w → C v → C w) {p : Bytes} (hp : 37 ∉ p) {r : Option Bytes} (hr : ∀ w, r = some w → C w)
    {x t : Bytes} (h : EscEq (opt p r ++ x) t) : ∃ r' x', t = opt p r' ++ x' ∧ (∀ w, r' = some w → C w) ∧ EscEq x x' := by
  cases r with
  | none => exact ⟨none, t, rfl, by simp, h⟩
  | some w =>
    simp only [opt, List.append_assoc] at h
    obtain ⟨b, rfl, h1⟩ := h.cutPlain hp
    obtain ⟨w', x', rfl, h2, h3⟩ := h1.cut hcls (hC w (hr w rfl))
    refine ⟨some w', x', by simp [opt], ?_, h3⟩
    intro x hx; simp at hx; subst hx; exact hesc _ _ h2 (hr w rfl)

theorem Spec.Urn8141.esc {s t pre nid nss : Bytes} {r q f : Option Bytes} (h : Urn8141 s pre nid nss r q f) (he : EscEq s t) :
    ∃ nss' r' q' f', Urn8141 t pre nid nss' r' q' f' ∧ EscEq nss nss' := by
  have e := h.eq
  have hp : 37 ∉ pre ++ 58 :: nid ++ [58] := by
    simp only [List.mem_append, List.mem_cons, not_or, List.not_mem_nil, not_false_eq_true, and_true]
    exact ⟨⟨fun h1 => alpha_ne37 _ (h.hpre.alpha _ h1) rfl, by decide, fun h1 => nid_ne37 _ (h.hnid.chars _ h1) rfl⟩, by decide⟩
  rw [e] at he
  have he' : EscEq ((pre ++ 58 :: nid ++ [58]) ++ (nss ++ (opt (lit "?+") r ++ (opt (lit "?=") q ++ (opt (lit "#") f ++ []))))) t := by
    simpa using he
  obtain ⟨x, rfl, h1⟩ := he'.cutPlain hp
  obtain ⟨nss', x, rfl, h2, h3⟩ := h1.cut (by decide) (nss8141_seq h.hnss)
  obtain ⟨r', x, rfl, hr, h4⟩ := esc_opt (cls := isPcharSlashQ) (by decide) (fun w hw => RComp.seq hw) (fun v w he hv => hv.esc he) (by decide) h.hr h3
  obtain ⟨q', x, rfl, hq, h5⟩ := esc_opt (cls := isPcharSlashQ) (by decide) (fun w hw => QComp.seq hw) (fun v w he hv => hv.esc he) (by decide) h.hq h4
  obtain ⟨f', x, rfl, hf, h6⟩ := esc_opt (cls := isPcharSlashQ) (by decide) (C := Fragment) (fun w hw => hw)
    (fun v w he hv => PctSeq.esc he (by decide) hv) (by decide) h.hf h5
  cases h6
  exact ⟨nss', r', q', f', ⟨by simp, h.hpre, h.hnid, PctSeq1.esc h2 (by decide) (by decide) h.hnss, hr, hq, hf⟩, h2⟩

theorem lookahead_lower {s t : Bytes} (h : lowerAll s = lowerAll t) : lookahead s = lookahead t := lookahead_map h

end Urn
