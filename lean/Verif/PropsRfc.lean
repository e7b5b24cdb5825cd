import Verif.RfcAux
/-!
# Conformance to the RFCs

The languages accepted, compared with the grammars of the RFCs (`SpecRfc.lean`).
-/
set_option autoImplicit false
namespace Urn
open Spec Rfc

/-! ## C48: RFC 8141 -/

/-- The parts of a `namestring` of RFC 8141. -/
structure Parts8141 (s pre nid nss : Bytes) (r q f : Option Bytes) : Prop where
  eq : s = pre ++ 58 :: nid ++ 58 :: nss ++ opt (lit "?+") r ++ opt (lit "?=") q ++ opt (lit "#") f
  hpre : str "urn" pre
  hnid : R8141.NID nid
  hnss : R8141.NSS nss
  hr : ∀ w, r = some w → R8141.rComponent w
  hq : ∀ w, q = some w → R8141.qComponent w
  hf : ∀ w, f = some w → R8141.fComponent w

/-- `optional (L ⬝ A)` as an optional text. -/
theorem optional_iff {p : Bytes} {L A : Lang} (hL : ∀ w, L w ↔ w = p) {w : Bytes} :
    optional (L ⬝ A) w ↔ ∃ o, w = opt p o ∧ ∀ x, o = some x → A x := by
  constructor
  · rintro (rfl | ⟨u, v, rfl, hu, hv⟩)
    · exact ⟨none, rfl, by simp⟩
    · rw [(hL u).mp hu]
      exact ⟨some v, rfl, by rintro x ⟨⟩; exact hv⟩
  · rintro ⟨o, rfl, h⟩
    cases o with
    | none => exact .inl rfl
    | some x => exact .inr ⟨p, x, rfl, (hL p).mpr rfl, h x rfl⟩

/-- `namestring`, by parts. -/
theorem namestring_iff {s : Bytes} : R8141.namestring s ↔ ∃ pre nid nss r q f, Parts8141 s pre nid nss r q f := by
  constructor
  · rintro ⟨a, _, rfl, ⟨pre, _, rfl, hpre, c, _, rfl, hc, nid, _, rfl, hnid, c', nss, rfl, hc', hnss⟩, rq, g, rfl, hrq, hg⟩
    rw [str_colon] at hc hc'
    subst hc hc'
    obtain ⟨f, rfl, hf⟩ := (optional_iff fun w => str_hash).mp hg
    have hrq' : R8141.rqComponents rq := by
      rcases hrq with rfl | h
      · exact ⟨[], [], rfl, .inl rfl, .inl rfl⟩
      · exact h
    obtain ⟨x, y, rfl, hx, hy⟩ := hrq'
    obtain ⟨r, rfl, hr⟩ := (optional_iff fun w => str_plus).mp hx
    obtain ⟨q, rfl, hq⟩ := (optional_iff fun w => str_eq).mp hy
    exact ⟨pre, nid, nss, r, q, f, by simp, hpre, hnid, hnss, hr, hq, hf⟩
  · rintro ⟨pre, nid, nss, r, q, f, h⟩
    rw [h.eq]
    refine ⟨pre ++ ([58] ++ (nid ++ ([58] ++ nss))), (opt (lit "?+") r ++ opt (lit "?=") q) ++ opt (lit "#") f, by simp, ?_, _, _, rfl, .inr ?_, ?_⟩
    · exact ⟨pre, _, rfl, h.hpre, [58], _, rfl, str_colon.mpr rfl, nid, _, rfl, h.hnid, [58], nss, rfl, str_colon.mpr rfl, h.hnss⟩
    · exact ⟨_, _, rfl, (optional_iff fun w => str_plus).mpr ⟨r, rfl, h.hr⟩, (optional_iff fun w => str_eq).mpr ⟨q, rfl, h.hq⟩⟩
    · exact (optional_iff fun w => str_hash).mpr ⟨f, rfl, h.hf⟩

/-- The restrictions that RFC 8141 mode adds to the grammar of RFC 8141: the NID does not begin with `urn-`
(any case) and then a letter or `0`; in the r-component `?+` only occurs followed by `/` and `?=` only
followed by `/`, `?` or the end; in the q-component `?=` only occurs followed by `/`. -/
structure Restricted (nid : Bytes) (r q : Option Bytes) : Prop where
  nid : ¬ ∃ p x t, nid = p ++ 45 :: x :: t ∧ str "urn" p ∧ (ALPHA [x] ∨ x = 48)
  rPlus : ∀ a b, r = some (a ++ lit "?+" ++ b) → b.head? = some 47
  rEq : ∀ a b, r = some (a ++ lit "?=" ++ b) → b = [] ∨ b.head? = some 47 ∨ b.head? = some 63
  qEq : ∀ a b, q = some (a ++ lit "?=" ++ b) → b.head? = some 47

theorem alpha_single {x : UInt8} : ALPHA [x] ↔ isAlpha x = true := by
  rw [ALPHA, range, range, alt_one, one_single]
  exact (forall_byte (P := fun x => (decide ('A'.toNat ≤ x.toNat) && decide (x.toNat ≤ 'Z'.toNat) ||
    decide ('a'.toNat ≤ x.toNat) && decide (x.toNat ≤ 'z'.toNat)) = true ↔ isAlpha x = true) (by decide +kernel)) x

theorem component_iff {w : Bytes} : R8141.rComponent w ↔ Component w ∧ HexSeq isPcharSlashQ w := by
  rw [R8141.rComponent, pcharSlashQ_eq, pchar_eq]
  exact cat_hex (by decide) (forall_byte (by decide +kernel)) (by decide)

theorem nss8141_iff {w : Bytes} : R8141.NSS w ↔ Nss8141 w ∧ HexSeq isPcharSlash w := by
  rw [R8141.NSS, pcharSlash_eq, pchar_eq]
  exact cat_hex (by decide) (forall_byte (by decide +kernel)) (by decide)

theorem fComponent_iff {w : Bytes} : R8141.fComponent w ↔ HexSeq isPcharSlashQ w := by
  rw [R8141.fComponent, fragment, pcharSlashQ_eq, reps_hex]

theorem urn_ne {p : Bytes} (h : IsUrn p) : ∀ c ∈ p, c ≠ 37 := by
  obtain ⟨a, b, c, rfl, ha, hb, hc⟩ := isUrn_iff.mp h
  intro d hd
  simp only [List.mem_cons, List.not_mem_nil, or_false] at hd
  rintro rfl
  rcases hd with rfl | rfl | rfl
  · exact absurd ha (by decide)
  · exact absurd hb (by decide)
  · exact absurd hc (by decide)

theorem hexEscapes_opt {p : Bytes} (hp : ∀ c ∈ p, c ≠ 37) {cls : UInt8 → Bool} (hc : cls 37 = false) {o : Option Bytes}
    (ho : ∀ w, o = some w → PctSeq cls w) {b : Bytes} :
    HexEscapes (opt p o ++ b) ↔ (∀ w, o = some w → HexSeq cls w) ∧ HexEscapes b := by
  cases o with
  | none => simp [opt]
  | some w =>
    rw [opt, List.append_assoc, hexEscapes_plain hp, PctSeq.hexSeq hc (ho w rfl)]
    simp

theorem plus_ne : ∀ c ∈ lit "?+", c ≠ 37 := by decide
theorem eq_ne : ∀ c ∈ lit "?=", c ≠ 37 := by decide
theorem hash_ne : ∀ c ∈ lit "#", c ≠ 37 := by decide

/-- Hexadecimal escapes throughout, by parts. -/
theorem urn8141_hex {s pre nid nss : Bytes} {r q f : Option Bytes} (h : Urn8141 s pre nid nss r q f) :
    HexEscapes s ↔ HexSeq isPcharSlash nss ∧ (∀ w, r = some w → HexSeq isPcharSlashQ w) ∧
      (∀ w, q = some w → HexSeq isPcharSlashQ w) ∧ (∀ w, f = some w → HexSeq isPcharSlashQ w) := by
  have hpc : ∀ c, isPchar c = true → isPcharSlashQ c = true := forall_byte (by decide +kernel)
  have e : s = (pre ++ 58 :: nid ++ [58]) ++ (nss ++ (opt (lit "?+") r ++ (opt (lit "?=") q ++ (opt (lit "#") f ++ [])))) := by
    rw [h.eq]; simp
  have hpl : ∀ c ∈ pre ++ 58 :: nid ++ [58], c ≠ 37 := by
    intro c hc
    simp only [List.mem_append, List.mem_cons, List.not_mem_nil, or_false] at hc
    rcases hc with (hc | rfl | hc) | rfl
    · exact urn_ne h.hpre c hc
    · decide
    · exact nid_ne c (h.hnid.chars c hc)
    · decide
  rw [e, hexEscapes_plain hpl, PctSeq.hexSeq (by decide) (pctSeq1_seq (forall_byte (by decide +kernel)) h.hnss),
    hexEscapes_opt plus_ne (cls := isPcharSlashQ) (by decide) (fun w hw => pctSeq1_seq hpc (h.hr w hw).comp),
    hexEscapes_opt eq_ne (cls := isPcharSlashQ) (by decide) (fun w hw => pctSeq1_seq hpc (h.hq w hw).comp),
    hexEscapes_opt hash_ne (cls := isPcharSlashQ) (by decide) (fun w hw => h.hf w hw)]
  simp [hexEscapes_nil]

theorem parts_iff {s pre nid nss : Bytes} {r q f : Option Bytes} :
    Urn8141 s pre nid nss r q f ∧ HexEscapes s ↔ Parts8141 s pre nid nss r q f ∧ Restricted nid r q := by
  constructor
  · rintro ⟨h, hx⟩
    obtain ⟨h1, h2, h3, h4⟩ := (urn8141_hex h).mp hx
    refine ⟨⟨h.eq, str_urn.mpr h.hpre, nid8141_iff.mpr ⟨h.hnid.two, h.hnid.short, h.hnid.chars, h.hnid.first, h.hnid.last⟩,
      nss8141_iff.mpr ⟨h.hnss, h1⟩, fun w hw => component_iff.mpr ⟨(h.hr w hw).comp, h2 w hw⟩,
      fun w hw => component_iff.mpr ⟨(h.hq w hw).comp, h3 w hw⟩, fun w hw => fComponent_iff.mpr (h4 w hw)⟩, ⟨?_, ?_, ?_, ?_⟩⟩
    · rintro ⟨p, x, t, e, hp, hx⟩
      exact h.hnid.informal ⟨p, x, t, e, str_urn.mp hp, hx.imp alpha_single.mp _root_.id⟩
    · intro a b e
      exact (h.hr _ e).plus a b (by simp [lit])
    · intro a b e
      exact (h.hr _ e).eq a b (by simp [lit])
    · intro a b e
      exact (h.hq _ e).eq a b (by simp [lit])
  · rintro ⟨h, h'⟩
    have hn := nid8141_iff.mp h.hnid
    have key : Urn8141 s pre nid nss r q f := by
      refine ⟨h.eq, str_urn.mp h.hpre, ⟨hn.1, hn.2.1, hn.2.2.1, hn.2.2.2.1, hn.2.2.2.2, ?_⟩, (nss8141_iff.mp h.hnss).1, ?_, ?_,
        fun w hw => (fComponent_iff.mp (h.hf w hw)).pctSeq⟩
      · rintro ⟨p, x, t, e, hp, hx⟩
        exact h'.nid ⟨p, x, t, e, str_urn.mpr hp, hx.imp alpha_single.mpr _root_.id⟩
      · intro w hw
        refine ⟨(component_iff.mp (h.hr w hw)).1, fun a b e => h'.rPlus a b ?_, fun a b e => h'.rEq a b ?_⟩
        · rw [hw, e]; simp [lit]
        · rw [hw, e]; simp [lit]
      · intro w hw
        refine ⟨(component_iff.mp (h.hq w hw)).1, fun a b e => h'.qEq a b ?_⟩
        rw [hw, e]; simp [lit]
    refine ⟨key, (urn8141_hex key).mpr ⟨(nss8141_iff.mp h.hnss).2, fun w hw => (component_iff.mp (h.hr w hw)).2,
      fun w hw => (component_iff.mp (h.hq w hw)).2, fun w hw => fComponent_iff.mp (h.hf w hw)⟩⟩

theorem hexSeq_opt {p : Bytes} (hp : ∀ c ∈ p, c ≠ 37) {cls : UInt8 → Bool} (hc : cls 37 = false) {o : Option Bytes}
    (ho : ∀ w, o = some w → HexSeq cls w) {b : Bytes} (hb : HexEscapes b) : HexEscapes (opt p o ++ b) :=
  (hexEscapes_opt hp hc fun w hw => (ho w hw).pctSeq).mpr ⟨ho, hb⟩

/-- The escapes of a namestring are hexadecimal. -/
theorem parts_hex {s pre nid nss : Bytes} {r q f : Option Bytes} (h : Parts8141 s pre nid nss r q f) : HexEscapes s := by
  have e : s = (pre ++ 58 :: nid ++ [58]) ++ (nss ++ (opt (lit "?+") r ++ (opt (lit "?=") q ++ (opt (lit "#") f ++ [])))) := by
    rw [h.eq]; simp
  have hpl : ∀ c ∈ pre ++ 58 :: nid ++ [58], c ≠ 37 := by
    intro c hc
    simp only [List.mem_append, List.mem_cons, List.not_mem_nil, or_false] at hc
    rcases hc with (hc | rfl | hc) | rfl
    · exact urn_ne (str_urn.mp h.hpre) c hc
    · decide
    · exact nid_ne c ((nid8141_iff.mp h.hnid).2.2.1 c hc)
    · decide
  rw [e, hexEscapes_plain hpl]
  refine HexSeq.hexEscapes (by decide) (nss8141_iff.mp h.hnss).2 ?_
  refine hexSeq_opt plus_ne (cls := isPcharSlashQ) (by decide) (fun w hw => (component_iff.mp (h.hr w hw)).2) ?_
  refine hexSeq_opt eq_ne (cls := isPcharSlashQ) (by decide) (fun w hw => (component_iff.mp (h.hq w hw)).2) ?_
  exact hexSeq_opt hash_ne (cls := isPcharSlashQ) (by decide) (fun w hw => fComponent_iff.mp (h.hf w hw)) hexEscapes_nil

/-- The texts accepted whose escapes are hexadecimal are exactly the namestrings of RFC 8141 that have parts
meeting the restrictions; and these are the parts reported. -/
theorem C48_exact (s : Bytes) :
    (Accepts RFC8141Only s ∧ HexEscapes s ↔ ∃ pre nid nss r q f, Parts8141 s pre nid nss r q f ∧ Restricted nid r q) ∧
    ∀ pre nid nss r q f, Parts8141 s pre nid nss r q f → Restricted nid r q →
      ∃ u, ParsesTo RFC8141Only s u ∧ u.ID = nid ∧ u.SS = nss ∧ u.rComponent = r.getD [] ∧ u.qComponent = q.getD [] ∧ u.fComponent = f.getD [] := by
  constructor
  · rw [C12_exact]
    constructor
    · rintro ⟨⟨pre, nid, nss, r, q, f, h⟩, hx⟩
      exact ⟨pre, nid, nss, r, q, f, parts_iff.mp ⟨h, hx⟩⟩
    · rintro ⟨pre, nid, nss, r, q, f, h⟩
      exact ⟨⟨pre, nid, nss, r, q, f, (parts_iff.mpr h).1⟩, (parts_iff.mpr h).2⟩
  · intro pre nid nss r q f h h'
    have h := (parts_iff.mpr ⟨h, h'⟩).1
    refine ⟨_, parsesTo_8141.mpr ⟨pre, nid, nss, r, q, f, h, rfl⟩, rfl, rfl, rfl, rfl, rfl⟩

theorem parts_case : Parts8141 (lit "urn:ab:c?+d?=e#f") (lit "urn") (lit "ab") (lit "c") (some (lit "d")) (some (lit "e")) (some (lit "f")) ∧
    Restricted (lit "ab") (some (lit "d")) (some (lit "e")) := by
  refine parts_iff.mp ⟨⟨by decide, by unfold IsUrn; decide, ⟨by decide, by decide, by decide, by decide, by decide, ?_⟩,
    .char (by decide) .nil, ?_, ?_, ?_⟩, hexEscapes_none (by decide)⟩
  · rintro ⟨p, x, t, e, _⟩
    have := congrArg (45 ∈ ·) e
    simp [lit] at this
  · rintro w ⟨⟩
    refine ⟨.char (by decide) .nil, ?_, ?_⟩ <;>
    · intro a b e
      have := congrArg List.length e
      simp [lit] at this
      omega
  · rintro w ⟨⟩
    refine ⟨.char (by decide) .nil, ?_⟩
    intro a b e
    have := congrArg List.length e
    simp [lit] at this
    omega
  · rintro w ⟨⟩
    exact .char (by decide) .nil

/-- Accepted texts are namestrings of RFC 8141 if and only if their escapes are hexadecimal. -/
theorem C48_sound (s : Bytes) (h : Accepts RFC8141Only s) : R8141.namestring s ↔ HexEscapes s := by
  constructor
  · intro hn
    obtain ⟨pre, nid, nss, r, q, f, h⟩ := namestring_iff.mp hn
    exact parts_hex h
  · intro hx
    obtain ⟨pre, nid, nss, r, q, f, h, _⟩ := (C48_exact s).1.mp ⟨h, hx⟩
    exact namestring_iff.mpr ⟨pre, nid, nss, r, q, f, h⟩

example : R8141.namestring Cases.s8141 ↔ HexEscapes Cases.s8141 := C48_sound _ ⟨_, Cases.p8141⟩

theorem urn_length {p : Bytes} (h : IsUrn p) : p.length = 3 := by
  obtain ⟨a, b, c, rfl, _⟩ := isUrn_iff.mp h; rfl

theorem urn_noColon {p : Bytes} (h : IsUrn p) : 58 ∉ p := by
  obtain ⟨a, b, c, rfl, ha, hb, hc⟩ := isUrn_iff.mp h
  intro hd
  simp only [List.mem_cons, List.not_mem_nil, or_false] at hd
  rcases hd with rfl | rfl | rfl
  · exact absurd ha (by decide)
  · exact absurd hb (by decide)
  · exact absurd hc (by decide)

/-- The beginning of the NID, in the text. -/
theorem illInformal_iff {pre nid z : Bytes} (hp : IsUrn pre) :
    (∃ a p x t, pre ++ 58 :: nid ++ 58 :: z = a ++ 58 :: (p ++ 45 :: x :: t) ∧ a.length = 3 ∧ str "urn" p ∧ (ALPHA [x] ∨ x = 48)) ↔
      ∃ p x t, nid = p ++ 45 :: x :: t ∧ str "urn" p ∧ (ALPHA [x] ∨ x = 48) := by
  constructor
  · rintro ⟨a, p, x, t, e, ha, hu, hx⟩
    rw [List.append_assoc] at e
    have e2 := (List.append_inj e (by rw [ha, urn_length hp])).2
    simp only [List.cons_append, List.cons.injEq, true_and] at e2
    have e3 : nid ++ 58 :: z = (p ++ [45, x]) ++ t := by rw [e2]; simp
    have hn : 58 ∉ p ++ [45, x] := by
      have hx' : x ≠ 58 := by
        rintro rfl
        rcases hx with hx | hx
        · rw [alpha_single] at hx; exact absurd hx (by decide)
        · exact absurd hx (by decide)
      simp only [List.mem_append, List.mem_cons, List.not_mem_nil, or_false, not_or]
      exact ⟨urn_noColon (str_urn.mp hu), by decide, fun h => hx' h.symm⟩
    rcases List.append_eq_append_iff.mp e3 with ⟨c, h1, h2⟩ | ⟨c, h1, h2⟩
    · cases c with
      | nil =>
        refine ⟨p, x, [], ?_, hu, hx⟩
        simpa using h1.symm
      | cons d c =>
        simp only [List.cons_append, List.cons.injEq] at h2
        exact absurd (by rw [h1, ← h2.1]; simp) hn
    · exact ⟨p, x, c, by rw [h1]; simp, hu, hx⟩
  · rintro ⟨p, x, t, rfl, hu, hx⟩
    exact ⟨pre, p, x, t ++ 58 :: z, by simp, urn_length hp, hu, hx⟩

/-- A namestring without components is accepted unless its NID begins with `urn-` and a letter or `0`. -/
theorem C48_assigned (s : Bytes) (h : R8141.assignedName s) :
    Accepts RFC8141Only s ↔ ¬ ∃ a p x t, s = a ++ 58 :: (p ++ 45 :: x :: t) ∧ a.length = 3 ∧ str "urn" p ∧ (ALPHA [x] ∨ x = 48) := by
  obtain ⟨pre, _, rfl, hpre, c, _, rfl, hc, nid, _, rfl, hnid, c', nss, rfl, hc', hnss⟩ := h
  rw [str_colon] at hc hc'
  subst hc hc'
  have e : pre ++ ([58] ++ (nid ++ ([58] ++ nss))) = pre ++ 58 :: nid ++ 58 :: nss := by simp
  rw [e]
  have hp : Parts8141 (pre ++ 58 :: nid ++ 58 :: nss) pre nid nss none none none :=
    ⟨by simp [opt], hpre, hnid, hnss, by simp, by simp, by simp⟩
  constructor
  · intro ha
    obtain ⟨pre', nid', nss', r, q, f, h1, h2⟩ := (C48_exact _).1.mp ⟨ha, parts_hex hp⟩
    have e' : pre ++ 58 :: nid ++ 58 :: nss = pre' ++ 58 :: nid' ++ 58 :: (nss' ++ opt (lit "?+") r ++ opt (lit "?=") q ++ opt (lit "#") f) := by
      rw [h1.eq]; simp
    rw [e', illInformal_iff (str_urn.mp h1.hpre)]
    exact h2.nid
  · intro hn
    rw [illInformal_iff (str_urn.mp hpre)] at hn
    exact ((C48_exact _).1.mpr ⟨pre, nid, nss, none, none, none, hp, ⟨hn, by simp, by simp, by simp⟩⟩).1

/-- A namestring with components is accepted if the sequences `?+` and `?=` occur in it only as delimiters and
its NID does not begin with `urn-`. -/
theorem C48_complete (s pre nid nss : Bytes) (r q f : Option Bytes) (h : Parts8141 s pre nid nss r q f)
    (hn : ¬ ∃ p t, nid = p ++ 45 :: t ∧ str "urn" p)
    (hr : ∀ w, r = some w ∨ q = some w → ¬ ∃ a b, w = a ++ lit "?+" ++ b ∨ w = a ++ lit "?=" ++ b) : Accepts RFC8141Only s := by
  refine ((C48_exact s).1.mpr ⟨pre, nid, nss, r, q, f, h, ?_⟩).1
  refine ⟨?_, ?_, ?_, ?_⟩
  · rintro ⟨p, x, t, e, hp, _⟩
    exact hn ⟨p, x :: t, e, hp⟩
  · intro a b e
    exact absurd ⟨a, b, .inl rfl⟩ (hr _ (.inl e))
  · intro a b e
    exact absurd ⟨a, b, .inr rfl⟩ (hr _ (.inl e))
  · intro a b e
    exact absurd ⟨a, b, .inr rfl⟩ (hr _ (.inr e))

example : Accepts RFC8141Only (lit "urn:ab:c?+d?=e#f") := by
  refine C48_complete _ _ _ _ _ _ _ parts_case.1 ?_ ?_
  · rintro ⟨p, t, e, _⟩
    have := congrArg (45 ∈ ·) e
    simp [lit] at this
  · rintro w h ⟨a, b, e⟩
    have h1 : w.length = 1 := by rcases h with h | h <;> simp [lit] at h <;> simp [← h]
    rcases e with e | e <;> rw [e] at h1 <;> simp [lit] at h1 <;> omega

example : R8141.assignedName (lit "urn:ab:c") ∧ ¬ ∃ a p x t, lit "urn:ab:c" = a ++ 58 :: (p ++ 45 :: x :: t) ∧ a.length = 3 ∧
    str "urn" p ∧ (ALPHA [x] ∨ x = 48) := by
  refine ⟨?_, ?_⟩
  · exact ⟨lit "urn", _, by rfl, rfl, [58], lit "ab:c", by rfl, str_colon.mpr rfl, lit "ab", lit ":c", by rfl,
      nid8141_iff.mpr ⟨by decide, by decide, by decide, by decide, by decide⟩, [58], lit "c", by rfl, str_colon.mpr rfl,
      nss8141_iff.mpr ⟨.char (by decide) .nil, .char (by decide) .nil⟩⟩
  · rintro ⟨a, p, x, t, e, _⟩
    have := congrArg (45 ∈ ·) e
    simp [lit] at this

/-- The three restrictions are real: namestrings of RFC 8141 that are rejected; and the escapes need not be
hexadecimal: a text accepted that is not a namestring. -/
theorem C48_refuted :
    (R8141.namestring (lit "urn:ab:c?+d?+e") ∧ ¬ Accepts RFC8141Only (lit "urn:ab:c?+d?+e")) ∧
    (R8141.namestring (lit "urn:ab:c?=d?=e") ∧ ¬ Accepts RFC8141Only (lit "urn:ab:c?=d?=e")) ∧
    (R8141.namestring (lit "urn:urn-x:c") ∧ ¬ Accepts RFC8141Only (lit "urn:urn-x:c")) ∧
    (Accepts RFC8141Only (lit "urn:ab:%zz") ∧ ¬ R8141.namestring (lit "urn:ab:%zz")) := by
  have n : ∀ c, isPchar c = true → R8141.NSS [c] := fun c h =>
    nss8141_iff.mpr ⟨.char h .nil, .char (by simp [isPcharSlash, h]) .nil⟩
  refine ⟨⟨namestring_iff.mpr ⟨lit "urn", lit "ab", lit "c", some (lit "d?+e"), none, none, by decide, rfl,
      nid8141_iff.mpr (by decide), n _ (by decide), ?_, by simp, by simp⟩, not_accepts_of (by decide)⟩,
    ⟨namestring_iff.mpr ⟨lit "urn", lit "ab", lit "c", none, some (lit "d?=e"), none, by decide, rfl,
      nid8141_iff.mpr (by decide), n _ (by decide), by simp, ?_, by simp⟩, not_accepts_of (by decide)⟩,
    ⟨namestring_iff.mpr ⟨lit "urn", lit "urn-x", lit "c", none, none, none, by decide, rfl,
      nid8141_iff.mpr (by decide), n _ (by decide), by simp, by simp, by simp⟩, not_accepts_of (by decide)⟩, ?_⟩
  · rintro w ⟨⟩
    exact component_iff.mpr ⟨.char (by decide) (.char (by decide) (.char (by decide) (.char (by decide) .nil))),
      .char (by decide) (.char (by decide) (.char (by decide) (.char (by decide) .nil)))⟩
  · rintro w ⟨⟩
    exact component_iff.mpr ⟨.char (by decide) (.char (by decide) (.char (by decide) (.char (by decide) .nil))),
      .char (by decide) (.char (by decide) (.char (by decide) (.char (by decide) .nil)))⟩
  · have ha : Accepts RFC8141Only (lit "urn:ab:%zz") := ⟨urn8141 (lit "urn") (lit "ab") (lit "%zz") none none none, parsesTo_of (by decide)⟩
    refine ⟨ha, fun h => ?_⟩
    obtain ⟨x, y, t, e, hx, _⟩ := hexEscapes_iff.mp ((C48_sound _ ha).mp h) (lit "urn:ab:") (lit "zz") (by decide)
    have : x = 122 := by
      have := congrArg List.head? e
      simpa [lit] using this.symm
    subst this
    exact absurd hx (by decide)

/-! ## C49: RFC 2141 -/

/-- The texts accepted whose escapes are hexadecimal are exactly the URNs of RFC 2141 with hexadecimal escapes
in which none of the reserved characters `/`, `?`, `#` occurs, but for those in which the byte at index 4 is
`u` or `U` and the byte at index 7 is a colon (so that in particular the NID `urn` is excluded). -/
theorem C49_exact (s : Bytes) : Accepts RFC2141Only s ∧ HexEscapes s ↔
    R2141.URN s ∧ HexEscapes s ∧ NoReserved s ∧ ¬ ((s[4]? = some 117 ∨ s[4]? = some 85) ∧ s[7]? = some 58) := by
  have hnr : ∀ c, isNidChar c = true → c ≠ 47 ∧ c ≠ 63 ∧ c ≠ 35 := forall_byte (by decide +kernel)
  have hur : ∀ p, IsUrn p → NoReserved p := by
    intro p h
    obtain ⟨a, b, c, rfl, ha, hb, hc⟩ := isUrn_iff.mp h
    intro d hd
    simp only [List.mem_cons, List.not_mem_nil, or_false] at hd
    refine ⟨?_, ?_, ?_⟩ <;>
    · rintro rfl
      rcases hd with rfl | rfl | rfl
      · exact absurd ha (by decide)
      · exact absurd hb (by decide)
      · exact absurd hc (by decide)
  rw [C05_exact]
  constructor
  · rintro ⟨⟨⟨pre, nid, nss, h⟩, hl⟩, hx⟩
    have e : s = (pre ++ [58]) ++ (nid ++ ([58] ++ nss)) := by rw [h.eq]; simp
    have e' : s = (pre ++ 58 :: nid ++ [58]) ++ (nss ++ []) := by rw [h.eq]; simp
    have hpl : ∀ c ∈ pre ++ 58 :: nid ++ [58], c ≠ 37 := by
      intro c hc
      simp only [List.mem_append, List.mem_cons, List.not_mem_nil, or_false] at hc
      rcases hc with (hc | rfl | hc) | rfl
      · exact urn_ne h.hpre c hc
      · decide
      · exact nid_ne c (h.hnid.chars c hc)
      · decide
    have hs : HexSeq isSss nss := by
      rw [e', hexEscapes_plain hpl, PctSeq.hexSeq (by decide) h.hnss.2] at hx
      exact hx.1
    obtain ⟨h1, _, h3⟩ := nss_trans.mp hs
    refine ⟨?_, hx, ?_, hl⟩
    · rw [e]
      refine ⟨_, _, rfl, str_urnColon.mpr ⟨pre, h.hpre, rfl⟩, nid, _, rfl,
        nid2141_iff.mpr ⟨h.hnid.nonempty, h.hnid.short, h.hnid.chars, h.hnid.noDash⟩, [58], nss, rfl, str_colon.mpr rfl, ?_⟩
      rw [R2141.NSS, urnChars_eq, reps1_hex]
      exact ⟨h.hnss.1, h1⟩
    · intro c hc
      rw [h.eq] at hc
      simp only [List.mem_append, List.mem_cons] at hc
      rcases hc with (hc | rfl | hc) | rfl | hc
      · exact hur pre h.hpre c hc
      · decide
      · exact hnr c (h.hnid.chars c hc)
      · decide
      · exact h3 c hc
  · rintro ⟨⟨a, _, rfl, ha, nid, _, rfl, hn, c, nss, rfl, hc, hs⟩, hx, hr, hl⟩
    rw [str_colon] at hc
    subst hc
    obtain ⟨pre, hpre, rfl⟩ := str_urnColon.mp ha
    rw [R2141.NSS, urnChars_eq, reps1_hex] at hs
    obtain ⟨n1, n2, n3, n4⟩ := nid2141_iff.mp hn
    have hxs : HexEscapes nss := by
      have e : (pre ++ [58]) ++ (nid ++ ([58] ++ nss)) = (pre ++ [58] ++ nid ++ [58]) ++ nss := by simp
      rw [e] at hx
      exact hexEscapes_suffix hx
    have hss : HexSeq isSss nss := nss_trans.mpr ⟨hs.2, hxs, fun c hc => hr c (by simp [hc])⟩
    refine ⟨⟨⟨pre, nid, nss, by simp, hpre, ⟨n1, n2, n3, n4, ?_⟩, hs.1, hss.pctSeq⟩, hl⟩, hx⟩
    intro hu
    obtain ⟨a, b, c, rfl, _⟩ := isUrn_iff.mp hpre
    obtain ⟨x, y, z, rfl, hx', _⟩ := isUrn_iff.mp hu
    refine hl ⟨?_, by simp⟩
    have hl : ∀ x : UInt8, lower x = 117 → x = 117 ∨ x = 85 := forall_byte (by decide +kernel)
    simpa using hl x hx'

example : (Accepts RFC2141Only (lit "urn:ab:%4fc") ∧ HexEscapes (lit "urn:ab:%4fc")) ∧ R2141.URN (lit "urn:ab:%4fc") := by
  have h : Accepts RFC2141Only (lit "urn:ab:%4fc") ∧ HexEscapes (lit "urn:ab:%4fc") := by
    refine ⟨⟨urn2141 (lit "urn") (lit "ab") (lit "%4fc"), parsesTo_of (by decide)⟩, ?_⟩
    have e : lit "urn:ab:%4fc" = lit "urn:ab:" ++ (lit "%4fc" ++ []) := by decide
    rw [e, hexEscapes_plain (by decide)]
    exact HexSeq.hexEscapes (p := isSss) (by decide) (.pct (by decide) (by decide) (.char (by decide) .nil)) hexEscapes_nil
  exact ⟨h, ((C49_exact _).mp h).1⟩

/-- Everything accepted is a URN of the grammar of RFC 2141 (in which a lone `%` counts as a reserved character). -/
theorem C49_sound (s : Bytes) (h : Accepts RFC2141Only s) : R2141.URN s := by
  obtain ⟨pre, nid, nss, h⟩ := ((C05_exact s).mp h).1
  have e : s = (pre ++ [58]) ++ (nid ++ ([58] ++ nss)) := by rw [h.eq]; simp
  rw [e]
  refine ⟨_, _, rfl, str_urnColon.mpr ⟨pre, h.hpre, rfl⟩, nid, _, rfl,
    nid2141_iff.mpr ⟨h.hnid.nonempty, h.hnid.short, h.hnid.chars, h.hnid.noDash⟩, [58], nss, rfl, str_colon.mpr rfl, ?_⟩
  rw [R2141.NSS, urnChars_eq, reps1_hex, trans_all]
  refine ⟨h.hnss.1, ?_⟩
  have ht : ∀ c, isAlnum c = true → isTrans c = true := forall_byte (by decide +kernel)
  have key : ∀ w, PctSeq isSss w → ∀ c ∈ w, isTrans c = true := by
    intro w hw
    induction hw with
    | nil => simp
    | char hc _ ih =>
      intro d hd
      rcases List.mem_cons.mp hd with rfl | hd
      · exact (sss_trans _ hc).1
      · exact ih d hd
    | pct ha hb _ ih =>
      intro d hd
      rcases List.mem_cons.mp hd with rfl | hd
      · decide
      rcases List.mem_cons.mp hd with rfl | hd
      · exact ht _ ha
      rcases List.mem_cons.mp hd with rfl | hd
      · exact ht _ hb
      · exact ih d hd
  exact key nss h.hnss.2

example : R2141.URN Cases.s2141 := C49_sound _ ⟨_, Cases.p2141⟩

/-- The exceptions are real: URNs of RFC 2141 that are rejected, for a reserved character, and for a NID that
merely begins with `u`; and escapes accepted that are not hexadecimal. -/
theorem C49_refuted :
    (R2141.URN (lit "urn:ab:c/d") ∧ ¬ Accepts RFC2141Only (lit "urn:ab:c/d")) ∧
    (R2141.URN (lit "urn:uci:d") ∧ ¬ Accepts RFC2141Only (lit "urn:uci:d")) ∧
    (Accepts RFC2141Only (lit "urn:ab:%zz") ∧ ¬ HexEscapes (lit "urn:ab:%zz")) := by
  have key : ∀ nid nss, (nid ≠ [] ∧ nid.length ≤ 32 ∧ (∀ c ∈ nid, isNidChar c = true) ∧ nid.head? ≠ some 45) →
      (nss ≠ [] ∧ ∀ c ∈ nss, isTrans c = true) → R2141.URN (lit "urn:" ++ (nid ++ ([58] ++ nss))) := by
    intro nid nss h1 h2
    refine ⟨_, _, rfl, rfl, nid, _, rfl, nid2141_iff.mpr h1, [58], nss, rfl, str_colon.mpr rfl, ?_⟩
    rw [R2141.NSS, urnChars_eq, reps1_hex, trans_all]
    exact h2
  refine ⟨⟨key (lit "ab") (lit "c/d") (by decide) (by decide), not_accepts_of (by decide)⟩,
    ⟨key (lit "uci") (lit "d") (by decide) (by decide), not_accepts_of (by decide)⟩,
    ⟨urn2141 (lit "urn") (lit "ab") (lit "%zz"), parsesTo_of (by decide)⟩, fun h => ?_⟩
  obtain ⟨x, y, t, e, hx, _⟩ := hexEscapes_iff.mp h (lit "urn:ab:") (lit "zz") (by decide)
  have : x = 122 := by
    have := congrArg List.head? e
    simpa [lit] using this.symm
  subst this
  exact absurd hx (by decide)

/-! ## C50: RFC 7643 -/

theorem scimName_iff {w : Bytes} : reps 1 R2141.letNum w ↔ ScimName w := by
  rw [letNum_eq]
  simp only [reps, times_one, ScimName]
  constructor
  · rintro ⟨n, h1, rfl, h⟩
    exact ⟨List.length_pos_iff.mp h1, h⟩
  · rintro ⟨h1, h⟩
    exact ⟨_, List.length_pos_iff.mpr h1, rfl, h⟩

theorem urnSyntax_iff {w : Bytes} : R7643.urnSyntax w ↔ w ≠ [] ∧ HexSeq isSss w := by
  rw [R7643.urnSyntax, urnSyntax_eq, reps1_hex]

/-- The texts accepted whose escapes are hexadecimal are exactly the SCIM URNs of RFC 7643 in which the NID
`ietf` is in lower case and the name consists of letters and digits. -/
theorem C50_exact (s : Bytes) : Accepts RFC7643Only s ∧ HexEscapes s ↔
    R7643.scimWith (fun w => w = lit "ietf") (reps 1 R2141.letNum) s := by
  have hal : ∀ c, isAlnum c = true → c ≠ 37 := forall_byte (by decide +kernel)
  have hkw : ∀ kw ty, ScimType kw ty → ∀ c ∈ kw, c ≠ 37 := by
    intro kw ty h; cases h <;> decide
  rw [C09_exact]
  constructor
  · rintro ⟨⟨pre, kw, ty, name, tail, other, h⟩, hx⟩
    have e : s = (pre ++ [58]) ++ (lit "ietf" ++ (lit ":params:scim:" ++ (kw ++ ([58] ++ (name ++ tail))))) := by
      rw [h.eq]; simp [lit]
    have ht : HexEscapes tail := by
      rw [e] at hx
      exact hexEscapes_suffix (hexEscapes_suffix (hexEscapes_suffix (hexEscapes_suffix (hexEscapes_suffix (hexEscapes_suffix hx)))))
    rw [e]
    refine ⟨_, _, rfl, str_urnColon.mpr ⟨pre, h.hpre, rfl⟩, _, _, rfl, rfl, _, _, rfl, rfl, kw, _, rfl, ?_, [58], _, rfl,
      str_colon.mpr rfl, name, tail, rfl, scimName_iff.mpr h.hname, ?_⟩
    · cases h.hkw <;> simp
    · cases h.htail with
      | none => exact .inl rfl
      | some ho =>
        refine .inr ⟨[58], other, rfl, str_colon.mpr rfl, urnSyntax_iff.mpr ⟨ho.1, ?_⟩⟩
        have := hexEscapes_suffix (a := [58]) ht
        rw [← List.append_nil other, PctSeq.hexSeq (by decide) ho.2] at this
        exact this.1
  · rintro ⟨a, _, rfl, ha, _, _, rfl, rfl, _, _, rfl, rfl, kw, _, rfl, hk, c, _, rfl, hc, name, tail, rfl, hn, ht⟩
    rw [str_colon] at hc
    subst hc
    obtain ⟨pre, hpre, rfl⟩ := str_urnColon.mp ha
    rw [scimName_iff] at hn
    have hk' : ∃ ty, ScimType kw ty := by
      rcases hk with rfl | rfl | rfl
      · exact ⟨_, .schemas⟩
      · exact ⟨_, .api⟩
      · exact ⟨_, .param⟩
    obtain ⟨ty, hk'⟩ := hk'
    have ht' : ∃ other, ScimTail tail other ∧ HexEscapes tail := by
      rcases ht with rfl | ⟨c, o, rfl, hc, ho⟩
      · exact ⟨[], .none, hexEscapes_nil⟩
      · rw [str_colon] at hc
        subst hc
        rw [urnSyntax_iff] at ho
        refine ⟨o, .some ⟨ho.1, ho.2.pctSeq⟩, ?_⟩
        rw [List.singleton_append, hexEscapes_cons (by decide)]
        have := HexSeq.hexEscapes (by decide) ho.2 hexEscapes_nil
        simpa using this
    obtain ⟨other, ht1, ht2⟩ := ht'
    refine ⟨⟨pre, kw, ty, name, tail, other, by simp [lit], hpre, hk', hn, ht1⟩, ?_⟩
    have e : pre ++ [58] ++ (lit "ietf" ++ (lit ":params:scim:" ++ (kw ++ ([58] ++ (name ++ tail))))) =
        (pre ++ ([58] ++ (lit "ietf:params:scim:" ++ (kw ++ ([58] ++ name))))) ++ tail := by simp [lit]
    rw [e, hexEscapes_plain]
    · exact ht2
    · intro c hc
      simp only [List.mem_append, List.mem_singleton] at hc
      rcases hc with hc | rfl | hc | hc | rfl | hc
      · exact urn_ne hpre c hc
      · decide
      · revert c; decide
      · exact hkw kw ty hk' c hc
      · decide
      · exact hal c (hn.2 c hc)

example : Accepts RFC7643Only (lit "urn:ietf:params:scim:api:x:%4f") ∧ HexEscapes (lit "urn:ietf:params:scim:api:x:%4f") := by
  refine ⟨⟨urnScim (lit "urn") (lit "api") 2 (lit "x") (lit ":%4f") (lit "%4f"), parsesTo_of (by decide)⟩, ?_⟩
  have e : lit "urn:ietf:params:scim:api:x:%4f" = lit "urn:ietf:params:scim:api:x:" ++ (lit "%4f" ++ []) := by decide
  rw [e, hexEscapes_plain (by decide)]
  exact HexSeq.hexEscapes (p := isSss) (by decide) (.pct (by decide) (by decide) .nil) hexEscapes_nil

/-- So accepted texts with hexadecimal escapes are SCIM URNs of RFC 7643. -/
theorem C50_sound (s : Bytes) (h : Accepts RFC7643Only s) (hx : HexEscapes s) : R7643.scim s := by
  obtain ⟨a, _, rfl, ha, _, _, rfl, rfl, x, y, rfl, hp, kw, z, rfl, hk, c, v, rfl, hc, name, tail, rfl, hn, ht⟩ := (C50_exact s).mp ⟨h, hx⟩
  refine ⟨a, _, rfl, ha, _, _, rfl, rfl, x, _, rfl, hp, kw, _, rfl, hk, c, _, rfl, hc, name, tail, rfl, ?_, ht⟩
  obtain ⟨h1, h2⟩ := scimName_iff.mp hn
  rw [urnSyntax_iff]
  refine ⟨h1, ?_⟩
  have hs : ∀ c, isAlnum c = true → isSss c = true := forall_byte (by decide +kernel)
  clear hn h1 h hx
  induction name with
  | nil => exact .nil
  | cons d name ih => exact .char (hs d (h2 d (by simp))) (ih fun e he => h2 e (by simp [he]))

example : R7643.scim (lit "urn:ietf:params:scim:api:x") :=
  C50_sound _ ⟨urnScim (lit "urn") (lit "api") 2 (lit "x") [] [], parsesTo_of (by decide)⟩ (hexEscapes_none (by decide))

/-- The restrictions are real: SCIM URNs of RFC 7643 that are rejected, one with the NID in upper case, one
with a name that is not alphanumeric. -/
theorem C50_refuted :
    (R7643.scim (lit "urn:IETF:params:scim:api:x") ∧ ¬ Accepts RFC7643Only (lit "urn:IETF:params:scim:api:x")) ∧
    (R7643.scim (lit "urn:ietf:params:scim:api:a-b") ∧ ¬ Accepts RFC7643Only (lit "urn:ietf:params:scim:api:a-b")) := by
  refine ⟨⟨⟨lit "urn:", lit "IETF:params:scim:api:x", by decide, rfl, lit "IETF", lit ":params:scim:api:x", by decide, by unfold str; decide,
      lit ":params:scim:", lit "api:x", by decide, rfl, lit "api", lit ":x", by decide, by decide, lit ":", lit "x", by decide, rfl,
      lit "x", [], by decide, urnSyntax_iff.mpr ⟨by decide, .char (by decide) .nil⟩, .inl rfl⟩, not_accepts_of (by decide)⟩,
    ⟨lit "urn:", lit "ietf:params:scim:api:a-b", by decide, rfl, lit "ietf", lit ":params:scim:api:a-b", by decide, by unfold str; decide,
      lit ":params:scim:", lit "api:a-b", by decide, rfl, lit "api", lit ":a-b", by decide, by decide, lit ":", lit "a-b", by decide, rfl,
      lit "a-b", [], by decide, urnSyntax_iff.mpr ⟨by decide, .char (by decide) (.char (by decide) (.char (by decide) .nil))⟩, .inl rfl⟩,
    not_accepts_of (by decide)⟩

end Urn
