import Verif.Gram
/-!
# The language of the RFC 2141 reference parser
-/
namespace Urn
open Spec

theorem sss37 : isSss 37 = false := by decide

/-- The URN returned for `pre:nid:nss`. -/
def urn2141 (pre nid nss : Bytes) : URN :=
  { «prefix» := pre, ID := nid, SS := nss, norm := lowerEsc nss, kind := .RFC2141, tolower := ups .plain 0 nss }

theorem nss2141_iff {w : Bytes} : Nss2141 w ↔ ∃ q, steps (nssStep isSss isSss) .start w = some q ∧ q.ok = true := by
  rw [nss_iff sss37 sss37, pctSeq1_iff]; rfl

theorem refNss2141_ok {hx : Bool} {pre nid nss : Bytes} {b : Nat} (h : Nss2141 nss) :
    refNss2141 hx pre nid nss b = (some (urn2141 pre nid nss), none) := by
  obtain ⟨q, h1, h2⟩ := nss2141_iff.mp h
  simp only [refNss2141, munch_eq_nil h1, h2, and_self, if_true, urn2141, lowerGo_eq sss37 h.2]

theorem refNss2141_bad {hx : Bool} {pre nid nss : Bytes} {b : Nat} (h : ¬ Nss2141 nss) :
    refNss2141 hx pre nid nss b = bad (nssErr hx .specificString (munch (nssStep isSss isSss) .start nss).1)
      (b + (munch (nssStep isSss isSss) .start nss).2.1.length) := by
  have hs := steps_munch (stp := nssStep isSss isSss) .start nss
  have ha := munch_append (nssStep isSss isSss) .start nss
  simp only [refNss2141]
  rw [if_neg]
  rintro ⟨h1, h2⟩
  rw [h1, List.append_nil] at ha
  rw [ha] at hs
  exact h (nss2141_iff.mpr ⟨_, hs, h2⟩)

theorem refNid2141_nid {fl : Flags} {pre nid nss : Bytes} (h : Nid2141 nid) :
    refNid2141 fl pre (nid ++ 58 :: nss) =
      if fl.chk ∧ clash (nid ++ 58 :: nss) then bad .noUrnWithinID 7
      else refNss2141 fl.hx pre nid nss (4 + nid.length + 1) := by
  obtain ⟨q, h1, h2⟩ := nid2_iff.mpr h
  have hm : munch nid2Step .start (nid ++ 58 :: nss) = (q, nid, 58 :: nss) :=
    munch_eq h1 (by rintro c t h; simp at h; rw [← h.1]; exact nid2_colon q)
  simp only [refNid2141, hm, h2, and_self, if_true]

theorem refNid2141_bad {fl : Flags} {pre rest : Bytes} (h : ∀ nid nss, Nid2141 nid → rest ≠ nid ++ 58 :: nss) :
    refNid2141 fl pre rest =
      if fl.chk ∧ clash rest then bad .noUrnWithinID 7
      else bad .identifier (4 + (munch nid2Step .start rest).2.1.length) := by
  have hs := steps_munch (stp := nid2Step) .start rest
  have ha := munch_append nid2Step .start rest
  simp only [refNid2141]
  congr 1
  generalize munch nid2Step .start rest = x at *
  obtain ⟨q, w, r⟩ := x
  simp only at *
  cases r with
  | nil => rfl
  | cons c t =>
    simp only
    rw [if_neg]
    rintro ⟨rfl, hc⟩
    exact h w t (nid2_iff.mp ⟨q, hs, hc⟩) ha.symm

/-- The look-ahead of the code: the identifier starts with `u` or `U` and byte 7 is a colon. -/
def lookahead (s : Bytes) : Bool := (s[4]? == some 117 || s[4]? == some 85) && s[7]? == some 58

theorem lower_u : ∀ c : UInt8, lower c = 117 ↔ (c = 117 ∨ c = 85) := forall_byte (by decide +kernel)

theorem clash_eq {pre rest : Bytes} (h : IsUrn pre) : clash rest = lookahead (pre ++ 58 :: rest) := by
  obtain ⟨a, b, c, rfl, _⟩ := isUrn_iff.mp h
  have e4 : ([a, b, c] ++ 58 :: rest)[4]? = rest[0]? := by simp
  have e7 : ([a, b, c] ++ 58 :: rest)[7]? = rest[3]? := by simp
  rw [clash, lookahead, e4, e7, ← List.head?_eq_getElem?]
  congr 1
  cases rest with
  | nil => rfl
  | cons x t =>
    simp only [List.head?_cons, Option.map_some]
    rw [Bool.eq_iff_iff]
    simp [lower_u]

/-- The result on a well-formed URN. -/
theorem ref2141_wf {fl : Flags} {s pre nid nss : Bytes} (h : Urn2141 s pre nid nss) :
    ref2141 fl s = if fl.chk ∧ lookahead s then bad .noUrnWithinID 7 else (some (urn2141 pre nid nss), none) := by
  obtain ⟨rfl, h1, h2, h3⟩ := h
  simp only [ref2141, List.append_assoc, List.cons_append]
  rw [refPrefix_urn h1, refNid2141_nid h2, refNss2141_ok h3, clash_eq h1]

/-- The result on any other input. -/
theorem ref2141_notwf {fl : Flags} {s : Bytes} (h : ∀ pre nid nss, ¬ Urn2141 s pre nid nss) :
    ∃ e, ref2141 fl s = (none, some e) := by
  rcases refPrefix_cases s with ⟨pre, rest, h1, rfl⟩ | ⟨n, _, _, hb⟩
  · simp only [ref2141]
    rw [refPrefix_urn h1]
    by_cases hn : ∃ nid nss, Nid2141 nid ∧ rest = nid ++ 58 :: nss
    · obtain ⟨nid, nss, h2, rfl⟩ := hn
      rw [refNid2141_nid h2]
      split
      · exact ⟨_, rfl⟩
      · rw [refNss2141_bad]
        · exact ⟨_, rfl⟩
        · intro h3
          exact h pre nid nss ⟨by simp, h1, h2, h3⟩
    · rw [refNid2141_bad (fun nid nss h2 h3 => hn ⟨nid, nss, h2, h3⟩)]
      split <;> exact ⟨_, rfl⟩
  · exact ⟨_, hb _⟩

/-- Exact language and results. -/
theorem ref2141_iff {fl : Flags} {s : Bytes} {u : URN} :
    ref2141 fl s = (some u, none) ↔
      ∃ pre nid nss, Urn2141 s pre nid nss ∧ ¬ (fl.chk = true ∧ lookahead s = true) ∧ u = urn2141 pre nid nss := by
  by_cases h : ∃ pre nid nss, Urn2141 s pre nid nss
  · obtain ⟨pre, nid, nss, h⟩ := h
    rw [ref2141_wf h]
    constructor
    · intro h'
      split at h'
      · simp [bad] at h'
      · rename_i hl
        simp at h'
        exact ⟨pre, nid, nss, h, hl, h'.symm⟩
    · rintro ⟨pre', nid', nss', h', hl, rfl⟩
      rw [if_neg hl]
      have e := ref2141_wf (fl := ⟨true, false⟩) h
      rw [ref2141_wf (fl := ⟨true, false⟩) h'] at e
      simpa using e.symm
  · have h' : ∀ pre nid nss, ¬ Urn2141 s pre nid nss := fun a b c hu => h ⟨a, b, c, hu⟩
    obtain ⟨e, he⟩ := ref2141_notwf (fl := fl) h'
    rw [he]
    constructor
    · intro h; simp at h
    · rintro ⟨pre, nid, nss, hu, _⟩; exact absurd hu (h' _ _ _)

/-- There are only two outcomes. -/
theorem ref2141_or (fl : Flags) (s : Bytes) :
    (∃ u, ref2141 fl s = (some u, none)) ∨ (∃ e, ref2141 fl s = (none, some e)) := by
  by_cases h : ∃ pre nid nss, Urn2141 s pre nid nss
  · obtain ⟨pre, nid, nss, h⟩ := h
    rw [ref2141_wf h]
    split
    · exact Or.inr ⟨_, rfl⟩
    · exact Or.inl ⟨_, rfl⟩
  · exact Or.inr (ref2141_notwf (fun a b c hu => h ⟨a, b, c, hu⟩))

/-- A URN can be split in only one way. -/
theorem Spec.Urn2141.unique {s pre nid nss pre' nid' nss' : Bytes} (h : Urn2141 s pre nid nss)
    (h' : Urn2141 s pre' nid' nss') : pre = pre' ∧ nid = nid' ∧ nss = nss' := by
  have e := ref2141_wf (fl := ⟨true, false⟩) h
  rw [ref2141_wf (fl := ⟨true, false⟩) h'] at e
  simp [urn2141] at e
  exact ⟨e.1.symm, e.2.1.symm, e.2.2.1.symm⟩

end Urn
