import Verif.SpecEquiv
import Verif.PropsRfc
/-! # Lemmas for C77 -/
set_option autoImplicit false
namespace Urn
open Spec Rfc

theorem upper_lower : ∀ c : UInt8, upper (lower c) = upper c := forall_byte (by decide +kernel)
theorem lower_upper : ∀ c : UInt8, lower (upper c) = lower c := forall_byte (by decide +kernel)

theorem upper_eq_iff {a b : UInt8} : upper a = upper b ↔ lower a = lower b :=
  ⟨fun h => by rw [← lower_upper a, h, lower_upper], fun h => by rw [← upper_lower a, h, upper_lower]⟩

theorem upperEsc_char {c : UInt8} (h : c ≠ 37) (w : Bytes) : upperEsc (c :: w) = c :: upperEsc w := by
  rw [upperEsc]
  intro a b t hc
  exact absurd hc h

theorem upperEsc_eq_iff {cls : UInt8 → Bool} (hc : cls 37 = false) {v w : Bytes} (hv : PctSeq cls v) (hw : PctSeq cls w) :
    upperEsc v = upperEsc w ↔ EscEq v w := by
  have ne : ∀ c, cls c = true → c ≠ 37 := by rintro c h rfl; rw [hc] at h; cases h
  constructor
  · intro h
    induction hv generalizing w with
    | nil =>
      cases hw with
      | nil => exact .nil
      | char h1 _ => rw [upperEsc_char (ne _ h1)] at h; simp [upperEsc] at h
      | pct => simp [upperEsc] at h
    | char h1 _ ih =>
      rw [upperEsc_char (ne _ h1)] at h
      cases hw with
      | nil => simp [upperEsc] at h
      | char h2 hw =>
        rw [upperEsc_char (ne _ h2)] at h
        simp only [List.cons.injEq] at h
        obtain ⟨rfl, h⟩ := h
        exact .char (ne _ h1) (ih hw h)
      | pct =>
        simp only [upperEsc, List.cons.injEq] at h
        exact absurd h.1 (ne _ h1)
    | pct _ _ _ ih =>
      cases hw with
      | nil => simp [upperEsc] at h
      | char h2 hw =>
        rw [upperEsc_char (ne _ h2)] at h
        simp only [upperEsc, List.cons.injEq] at h
        exact absurd h.1.symm (ne _ h2)
      | pct _ _ hw =>
        simp only [upperEsc, List.cons.injEq, upper_eq_iff, true_and] at h
        exact .pct h.1 h.2.1 (ih hw h.2.2)
  · intro h
    clear hv hw
    induction h with
    | nil => rfl
    | char h _ ih => rw [upperEsc_char h, upperEsc_char h, ih]
    | pct h1 h2 _ ih => simp [upperEsc, ih, upper_eq_iff.2 h1, upper_eq_iff.2 h2]

theorem lower_colon : ∀ c : UInt8, lower c = 58 ↔ c = 58 := forall_byte (by decide +kernel)

theorem lowerAll_colon {w : Bytes} (h : 58 ∉ w) : 58 ∉ lowerAll w := by
  intro hc
  obtain ⟨c, h1, h2⟩ := List.mem_map.1 hc
  exact h (by rw [← (lower_colon c).1 h2]; exact h1)

theorem canon_inj {pre pre' nid nid' nss nss' : Bytes} (hp : IsUrn pre) (hp' : IsUrn pre') (hn : 58 ∉ nid) (hn' : 58 ∉ nid') :
    canon pre nid nss = canon pre' nid' nss' ↔ lowerAll nid = lowerAll nid' ∧ upperEsc nss = upperEsc nss' := by
  have e : lowerAll pre = lowerAll pre' := hp.trans hp'.symm
  constructor
  · intro h
    rw [canon, canon, e, List.append_assoc, List.append_assoc] at h
    have h := List.append_cancel_left h
    simp only [List.cons_append, List.cons.injEq, true_and] at h
    exact split_colon h (lowerAll_colon hn) (lowerAll_colon hn')
  · rintro ⟨h1, h2⟩
    rw [canon, canon, e, h1, h2]

theorem nid_noColon {w : Bytes} (h : ∀ c ∈ w, isNidChar c = true) : 58 ∉ w := fun hc => absurd (h 58 hc) (by decide)

/-- The normalised form is determined. -/
theorem canon_2141 {s pre nid nss w : Bytes} (he : s = pre ++ 58 :: nid ++ 58 :: nss) (hp : IsUrn pre) (hn : R2141.NID nid) (hs : R2141.NSS nss) :
    R2141.Canon s w ↔ w = canon pre nid nss := by
  constructor
  · rintro ⟨pre', nid', nss', he', hp', hn', -, rfl⟩
    rw [he'] at he
    simp only [List.append_assoc, List.cons_append] at he
    obtain ⟨rfl, h2⟩ := split_colon he (str_urn.1 hp').noColon hp.noColon
    obtain ⟨rfl, rfl⟩ := split_colon h2 (nid_noColon (nid2141_iff.1 hn').2.2.1) (nid_noColon (nid2141_iff.1 hn).2.2.1)
    rfl
  · rintro rfl
    exact ⟨pre, nid, nss, he, str_urn.2 hp, hn, hs, rfl⟩

theorem PctSeq_mem {cls : UInt8 → Bool} {w : Bytes} (h : PctSeq cls w) : ∀ c ∈ w, cls c = true ∨ c = 37 ∨ isAlnum c = true := by
  induction h with
  | nil => simp
  | char h _ ih => simpa [h] using ih
  | pct h1 h2 _ ih => simpa [h1, h2] using ih

theorem stop_unique {v w x y : Bytes} (hv : 63 ∉ v ∧ 35 ∉ v) (hw : 63 ∉ w ∧ 35 ∉ w) (hx : x = [] ∨ x.head? = some 63 ∨ x.head? = some 35)
    (hy : y = [] ∨ y.head? = some 63 ∨ y.head? = some 35) (h : v ++ x = w ++ y) : v = w := by
  have key : ∀ {v x : Bytes}, (63 ∉ v ∧ 35 ∉ v) → (x = [] ∨ x.head? = some 63 ∨ x.head? = some 35) →
      (v ++ x).takeWhile (fun c => c != 63 && c != 35) = v := by
    intro v x hv hx
    have e : x.takeWhile (fun c => c != 63 && c != 35) = [] := by
      cases x with
      | nil => rfl
      | cons c x =>
        simp only [List.head?_cons, Option.some.injEq, reduceCtorEq, false_or] at hx
        rcases hx with rfl | rfl <;> rfl
    rw [List.takeWhile_append_of_pos, e, List.append_nil]
    intro c hc
    have h1 : c ≠ 63 := by rintro rfl; exact hv.1 hc
    have h2 : c ≠ 35 := by rintro rfl; exact hv.2 hc
    simp [h1, h2]
  rw [← key hv hx, h, key hw hy]

theorem nss8141_stop {w : Bytes} (h : R8141.NSS w) : 63 ∉ w ∧ 35 ∉ w := by
  have := PctSeq_mem (nss8141_iff.1 h).2.pctSeq
  exact ⟨fun hc => absurd (this _ hc) (by decide), fun hc => absurd (this _ hc) (by decide)⟩

theorem canon_8141 {s pre nid nss rest w : Bytes} (he : s = pre ++ 58 :: nid ++ 58 :: nss ++ rest) (hp : IsUrn pre) (hn : R8141.NID nid) (hs : R8141.NSS nss)
    (hr : rest = [] ∨ rest.head? = some 63 ∨ rest.head? = some 35) : R8141.Canon s w ↔ w = canon pre nid nss := by
  constructor
  · rintro ⟨pre', nid', nss', rest', he', hp', hn', hs', hr', rfl⟩
    rw [he'] at he
    simp only [List.append_assoc, List.cons_append] at he
    obtain ⟨rfl, h2⟩ := split_colon he (str_urn.1 hp').noColon hp.noColon
    obtain ⟨rfl, h3⟩ := split_colon h2 (nid_noColon (nid8141_iff.1 hn').2.2.1) (nid_noColon (nid8141_iff.1 hn).2.2.1)
    rw [stop_unique (nss8141_stop hs') (nss8141_stop hs) hr' hr h3]
  · rintro rfl
    exact ⟨pre, nid, nss, rest, he, str_urn.2 hp, hn, hs, hr, rfl⟩

theorem opts_head (r q f : Option Bytes) : let x := opt (lit "?+") r ++ opt (lit "?=") q ++ opt (lit "#") f
    x = [] ∨ x.head? = some 63 ∨ x.head? = some 35 := by
  cases r <;> cases q <;> cases f <;> simp [opt, lit]

theorem equivalent_2141 {s t pre nid nss pre' nid' nss' : Bytes} (h : Urn2141 s pre nid nss) (h' : Urn2141 t pre' nid' nss')
    (hs : R2141.URN s) (ht : R2141.URN t) : R2141.equivalent s t ↔ lowerAll nid = lowerAll nid' ∧ EscEq nss nss' := by
  have key : ∀ {s pre nid nss}, Urn2141 s pre nid nss → R2141.URN s → ∀ w, R2141.Canon s w ↔ w = canon pre nid nss := by
    intro s pre nid nss h hs w
    obtain ⟨_, _, e, hu, n, _, rfl, hn, c, x, rfl, hc, hx⟩ := hs
    obtain ⟨p, hp, rfl⟩ := str_urnColon.1 hu
    obtain rfl := str_colon.1 hc
    have e2 := h.eq.symm.trans e
    simp only [List.append_assoc, List.cons_append, List.nil_append] at e2
    obtain ⟨rfl, e3⟩ := split_colon e2 h.hpre.noColon hp.noColon
    obtain ⟨rfl, rfl⟩ := split_colon e3 h.hnid.noColon (nid_noColon (nid2141_iff.1 hn).2.2.1)
    exact canon_2141 h.eq hp hn hx
  rw [← upperEsc_eq_iff (cls := isSss) (by decide) h.hnss.2 h'.hnss.2, ← canon_inj h.hpre h'.hpre h.hnid.noColon h'.hnid.noColon]
  constructor
  · rintro ⟨w, h1, h2⟩
    rw [← (key h hs w).1 h1, (key h' ht w).1 h2]
  · intro e
    exact ⟨_, (key h hs _).2 rfl, (key h' ht _).2 e⟩

theorem equivalent_8141 {s t pre nid nss pre' nid' nss' : Bytes} {r q f r' q' f' : Option Bytes} (h : Parts8141 s pre nid nss r q f)
    (h' : Parts8141 t pre' nid' nss' r' q' f') : R8141.equivalent s t ↔ lowerAll nid = lowerAll nid' ∧ EscEq nss nss' := by
  have key : ∀ {s pre nid nss r q f}, Parts8141 s pre nid nss r q f → ∀ w, R8141.Canon s w ↔ w = canon pre nid nss := by
    intro s pre nid nss r q f h w
    exact canon_8141 (rest := opt (lit "?+") r ++ opt (lit "?=") q ++ opt (lit "#") f) (by rw [h.eq]; simp) (str_urn.1 h.hpre) h.hnid h.hnss (opts_head r q f)
  rw [← upperEsc_eq_iff (cls := isPcharSlash) (by decide) (nss8141_iff.1 h.hnss).2.pctSeq (nss8141_iff.1 h'.hnss).2.pctSeq,
    ← canon_inj (str_urn.1 h.hpre) (str_urn.1 h'.hpre) (nid_noColon (nid8141_iff.1 h.hnid).2.2.1) (nid_noColon (nid8141_iff.1 h'.hnid).2.2.1)]
  constructor
  · rintro ⟨w, h1, h2⟩
    rw [← (key h w).1 h1, (key h' w).1 h2]
  · intro e
    exact ⟨_, (key h _).2 rfl, (key h' _).2 e⟩

end Urn
