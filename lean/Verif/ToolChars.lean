import Verif.ToolRuns
/-!
# The tools on texts of characters
-/
set_option autoImplicit false
set_option linter.unusedSimpArgs false
namespace Urn.ToolLang
open SpecTools Tools

/-- The UTF-8 encoding of characters, with the encoder of Lean. -/
def utf8 (cs : List Char) : Bytes := cs.flatMap String.utf8EncodeChar

@[simp] theorem utf8_nil : utf8 [] = [] := rfl
@[simp] theorem utf8_cons (c : Char) (cs : List Char) : utf8 (c :: cs) = String.utf8EncodeChar c ++ utf8 cs := by simp [utf8]
@[simp] theorem utf8_append (cs ds : List Char) : utf8 (cs ++ ds) = utf8 cs ++ utf8 ds := by simp [utf8]

theorem small_eq {c : Char} (h : c.toNat < 128) : String.utf8EncodeChar c = [UInt8.ofNat c.toNat] := by
  unfold String.utf8EncodeChar
  have : c.val.toNat ≤ 127 := by
    have := h; simp only [Char.toNat] at this; omega
  simp only [this, if_true]
  rfl

theorem large_byte (n : Nat) (h : 128 ≤ n) (h' : n < 256) : ¬ UInt8.ofNat n < 128 := by
  rw [UInt8.lt_iff_toNat_lt, UInt8.toNat_ofNat_of_lt' (by simpa using h')]
  simpa using h

theorem large_eq {c : Char} (h : ¬ c.toNat < 128) : String.utf8EncodeChar c ≠ [] ∧ ∀ b ∈ String.utf8EncodeChar c, ¬ b < 128 := by
  refine ⟨String.utf8EncodeChar_ne_nil, ?_⟩
  unfold String.utf8EncodeChar
  have : ¬ c.val.toNat ≤ 127 := by
    have := h; simp only [Char.toNat] at this; omega
  simp only [this, if_false]
  intro b hb
  split at hb
  · simp only [List.mem_cons, List.not_mem_nil, or_false] at hb
    rcases hb with rfl | rfl <;> exact large_byte _ (by omega) (by omega)
  · split at hb
    · simp only [List.mem_cons, List.not_mem_nil, or_false] at hb
      rcases hb with rfl | rfl | rfl <;> exact large_byte _ (by omega) (by omega)
    · simp only [List.mem_cons, List.not_mem_nil, or_false] at hb
      rcases hb with rfl | rfl | rfl | rfl <;> exact large_byte _ (by omega) (by omega)

/-- An ASCII byte of the encoding is a character. -/
theorem utf8_split {cs : List Char} {l r : Bytes} {c : UInt8} (hc : c < 128) (h : utf8 cs = l ++ c :: r) :
    ∃ as d bs, cs = as ++ d :: bs ∧ utf8 as = l ∧ utf8 [d] = [c] ∧ utf8 bs = r := by
  induction cs generalizing l with
  | nil => cases l <;> simp at h
  | cons d cs ih =>
    rw [utf8_cons] at h
    by_cases hd : d.toNat < 128
    · rw [small_eq hd] at h
      cases l with
      | nil =>
        simp only [List.cons_append, List.nil_append, List.cons.injEq] at h
        exact ⟨[], d, cs, rfl, rfl, by simp [small_eq hd, h.1], h.2⟩
      | cons b l =>
        simp only [List.cons_append, List.nil_append, List.cons.injEq] at h
        obtain ⟨as, e, bs, h1, h2, h3⟩ := ih h.2
        exact ⟨d :: as, e, bs, by rw [h1]; rfl, by rw [utf8_cons, small_eq hd, h2, h.1]; rfl, h3⟩
    · obtain ⟨_, hl⟩ := large_eq hd
      rcases List.append_eq_append_iff.1 h with ⟨x, h1, h2⟩ | ⟨x, h1, h2⟩
      · obtain ⟨as, e, bs, h3, h4, h5⟩ := ih h2
        exact ⟨d :: as, e, bs, by rw [h3]; rfl, by rw [utf8_cons, h4, h1], h5⟩
      · cases x with
        | nil =>
          obtain ⟨as, e, bs, h3, h4, h5⟩ := ih (l := []) h2.symm
          exact ⟨d :: as, e, bs, by rw [h3]; rfl, by rw [utf8_cons, h4, h1]; simp, h5⟩
        | cons y x =>
          simp only [List.cons_append, List.cons.injEq] at h2
          exact absurd hc (hl c (by rw [h1, h2.1]; simp))

theorem kept_chars {L : List Bytes} (hL : IsLines L) {cs : List Char} (h : utf8 cs = L.flatten) :
    ∃ ds, ds.Sublist cs ∧ utf8 ds = (kept L).flatten := by
  induction hL generalizing cs with
  | nil => exact ⟨[], List.nil_sublist _, rfl⟩
  | @last l h1 h2 =>
    simp only [List.flatten_cons, List.flatten_nil, List.append_nil] at h
    simp only [kept]
    split
    · exact ⟨[], List.nil_sublist _, rfl⟩
    · exact ⟨cs, List.Sublist.refl _, by simp [h]⟩
  | @cons l ls h1 _ ih =>
    simp only [List.flatten_cons, List.append_assoc, List.cons_append, List.nil_append] at h
    obtain ⟨as, d, bs, rfl, e1, e2, e3⟩ := utf8_split (by decide) h
    obtain ⟨ds, h2, h3⟩ := ih e3
    simp only [kept]
    split
    · exact ⟨ds, h2.trans (List.Sublist.trans (List.sublist_cons_self _ _) (List.sublist_append_right _ _)), h3⟩
    · refine ⟨as ++ d :: ds, (List.Sublist.refl _).append (h2.cons_cons _), ?_⟩
      rw [List.flatten_cons, ← h3, utf8_append, utf8_cons, e1]
      simp only [utf8_cons, utf8_nil, List.append_nil] at e2
      rw [e2]; simp

/-- The characters outside of ASCII. -/
def others (cs : List Char) : List Char := cs.filter fun c => decide (128 ≤ c.toNat)

theorem upper_small : ∀ y, isAlnum y = true → upper y < 128 ∧ y < 128 := forall_byte (by decide +kernel)

theorem squeezed_chars {t r : Bytes} (h : Squeezed t r) {b : Bytes} (hb : ∀ c ∈ b, ¬ c < 128) {cs : List Char}
    (ht : t = b ++ utf8 cs) : ∃ ds, r = b ++ utf8 ds ∧ others ds = others cs := by
  induction h generalizing b cs with
  | nil =>
    have := List.append_eq_nil_iff.1 ht.symm
    cases cs with
    | nil => exact ⟨[], ht, rfl⟩
    | cons c cs => simp [String.utf8EncodeChar_ne_nil] at this
  | @keep c t t' _ ih =>
    cases b with
    | cons d b =>
      simp only [List.cons_append, List.cons.injEq] at ht
      obtain ⟨ds, h1, h2⟩ := ih (fun c h => hb c (by simp [h])) ht.2
      exact ⟨ds, by rw [h1, ht.1]; rfl, h2⟩
    | nil =>
      cases cs with
      | nil => simp at ht
      | cons d cs =>
        rw [List.nil_append, utf8_cons] at ht
        by_cases hd : d.toNat < 128
        · rw [small_eq hd] at ht
          simp only [List.cons_append, List.nil_append, List.cons.injEq] at ht
          obtain ⟨ds, h1, h2⟩ := ih (b := []) (by simp) ht.2
          refine ⟨d :: ds, by rw [h1, List.nil_append, utf8_cons, small_eq hd, ht.1]; rfl, ?_⟩
          have : ¬ 128 ≤ d.toNat := by omega
          simpa [others, this] using h2
        · obtain ⟨hn, hl⟩ := large_eq hd
          cases he : String.utf8EncodeChar d with
          | nil => exact absurd he hn
          | cons e es =>
            rw [he] at ht hl
            simp only [List.cons_append, List.cons.injEq] at ht
            obtain ⟨ds, h1, h2⟩ := ih (b := es) (fun c h => hl c (by simp [h])) ht.2
            refine ⟨d :: ds, by rw [h1, List.nil_append, utf8_cons, he, ht.1]; rfl, ?_⟩
            have : 128 ≤ d.toNat := by omega
            simpa [others, this] using h2
  | @drop y t t' hy _ ih =>
    cases b with
    | cons d b =>
      simp only [List.cons_append, List.cons.injEq] at ht
      exact absurd (by rw [← ht.1]; decide) (hb d (by simp))
    | nil =>
      rw [List.nil_append] at ht
      obtain ⟨as, d, bs, e1, e2, e3, e4⟩ := utf8_split (cs := cs) (l := []) (c := 95) (by decide) ht.symm
      obtain ⟨hu, hs⟩ := upper_small y hy
      obtain ⟨as', d', bs', e1', e2', e3', e4'⟩ := utf8_split (cs := bs) (l := []) (c := y) hs e4
      have ha : as = [] := by
        cases as with
        | nil => rfl
        | cons c cs => simp [String.utf8EncodeChar_ne_nil] at e2
      have ha' : as' = [] := by
        cases as' with
        | nil => rfl
        | cons c cs => simp [String.utf8EncodeChar_ne_nil] at e2'
      subst ha ha' e1 e1'
      obtain ⟨ds, h1, h2⟩ := ih (b := []) (by simp) (cs := bs') e4'.symm
      have key (d : Char) (c : UInt8) (hc : c < 128) (h : utf8 [d] = [c]) : ¬ 128 ≤ d.toNat := by
        intro hd
        have := (large_eq (c := d) (by omega)).2 c (by simp at h; rw [h]; simp)
        exact this hc
      have hk := key d 95 (by decide) e3
      have hk' := key d' y hs e3'
      have hun : (upper y).toNat < 128 := by rw [UInt8.lt_iff_toNat_lt] at hu; exact hu
      have hv : (Char.ofNat (upper y).toNat).toNat = (upper y).toNat := by
        have h : ∀ n < 128, (Char.ofNat n).toNat = n := by decide
        exact h _ hun
      refine ⟨Char.ofNat (upper y).toNat :: ds, ?_, ?_⟩
      · rw [List.nil_append, utf8_cons, small_eq (by omega), hv, h1]; simp
      · have : ¬ 128 ≤ (upper y).toNat := by omega
        simpa [others, hk, hk', hv, this] using h2

end Urn.ToolLang
