import Verif.Json
import Verif.SpecJson
/-!
# Lemmas on JSON strings
-/
set_option autoImplicit false
namespace Urn.Json
open SpecJson

/-! ## Decoding what was encoded -/

theorem hex_back : ∀ c : UInt8, hexVal (hexDigit (c / 16)) = some (c / 16).toNat ∧ hexVal (hexDigit (c % 16)) = some (c % 16).toNat :=
  forall_byte (by decide +kernel)

theorem hex_value : ∀ c : UInt8, (c < 32 ∨ c = 38 ∨ c = 60 ∨ c = 62) →
    isSurrogate (((0 * 16 + 0) * 16 + (c / 16).toNat) * 16 + (c % 16).toNat) = false ∧
    encodeRune (((0 * 16 + 0) * 16 + (c / 16).toNat) * 16 + (c % 16).toNat) = [c] := forall_byte (by decide +kernel)

theorem decode_hex {a b c d : UInt8} {n : Nat} {w : Bytes} (h : hex4 [a, b, c, d] = some n) (hs : isSurrogate n = false) :
    decodeBody 0 (92 :: 117 :: a :: b :: c :: d :: w) = (decodeBody 0 w).map fun x => (encodeRune n ++ x.1, x.2) := by
  have h' : hex4 (a :: b :: c :: d :: w) = some n := h
  rw [decodeBody]
  simp only [show ¬ ((92 : UInt8) = 34) by decide, show ¬ ((92 : UInt8) < 32) by decide, if_true, if_false, h', hs, Bool.false_eq_true]
  rfl

/-- Decoding what was written for an ASCII byte. -/
theorem decode_encode {c : UInt8} (hc : c < 128) (w : Bytes) :
    decodeBody 0 (encodeByte c ++ w) = (decodeBody 0 w).map fun x => (c :: x.1, x.2) := by
  by_cases h1 : c = 34
  · subst h1; rfl
  by_cases h2 : c = 92
  · subst h2; rfl
  by_cases h3 : c = 8
  · subst h3; rfl
  by_cases h4 : c = 12
  · subst h4; rfl
  by_cases h5 : c = 10
  · subst h5; rfl
  by_cases h6 : c = 13
  · subst h6; rfl
  by_cases h7 : c = 9
  · subst h7; rfl
  by_cases h8 : c < 32 ∨ c = 38 ∨ c = 60 ∨ c = 62
  · have e : encodeByte c = [92, 117, 48, 48, hexDigit (c / 16), hexDigit (c % 16)] := by
      simp only [encodeByte, h1, h2, h3, h4, h5, h6, h7, h8, if_true, if_false]
    rw [e]
    have h4 : hex4 [48, 48, hexDigit (c / 16), hexDigit (c % 16)] = some (((0 * 16 + 0) * 16 + (c / 16).toNat) * 16 + (c % 16).toNat) := by
      simp only [hex4, (hex_back c).1, (hex_back c).2, show hexVal 48 = some 0 from rfl]
      rfl
    have := decode_hex (w := w) h4 (hex_value c h8).1
    rw [(hex_value c h8).2] at this
    exact this
  · have e : encodeByte c = [c] := by
      simp only [encodeByte, h1, h2, h3, h4, h5, h6, h7, h8, if_false]
    rw [e]
    show decodeBody 0 (c :: w) = _
    rw [decodeBody.eq_def]
    simp only [h1, h2, show ¬ c < 32 from fun h => h8 (Or.inl h), hc, if_true, if_false]

/-- A string with each invalid byte replaced by U+FFFD. -/
def coerce : Nat → Bytes → Bytes
  | _, [] => []
  | skip + 1, _ :: w => coerce skip w
  | 0, c :: w =>
      if c < 128 then c :: coerce 0 w else encodeRune (decodeRune c w).1 ++ coerce ((decodeRune c w).2 - 1) w

/-- A rune: 1 byte, or more that are there; and it depends only on these. -/
theorem rune_size (c : UInt8) (w : Bytes) : 1 ≤ (decodeRune c w).2 ∧ (decodeRune c w).2 - 1 ≤ w.length ∧
    ((decodeRune c w).2 ≠ 1 → ∀ x, decodeRune c (w.take ((decodeRune c w).2 - 1) ++ x) = decodeRune c w) := by
  unfold decodeRune
  split
  · simp
  · split
    · rcases w with _ | ⟨b, w⟩
      · simp
      · by_cases h : second c b = true
        · simp [h]
        · simp [h]
    · split
      · rcases w with _ | ⟨b, _ | ⟨d, w⟩⟩
        · simp
        · simp
        · by_cases h : (second c b && isCont d) = true
          · simp [h]
          · simp [h]
      · split
        · rcases w with _ | ⟨b, _ | ⟨d, _ | ⟨e, w⟩⟩⟩
          · simp
          · simp
          · simp
          · by_cases h : (second c b && isCont d && isCont e) = true
            · simp [h]
            · simp [h]
        · simp

theorem byte_lt {c : UInt8} (n : Nat) (hn : n < 256) : c < UInt8.ofNat n ↔ c.toNat < n := by
  rw [UInt8.lt_iff_toNat_lt, UInt8.toNat_ofNat_of_lt' (by simpa using hn)]

/-- A rune that does not begin with an ASCII byte is not ASCII. -/
theorem rune_large {c : UInt8} (hc : ¬ c < 128) (w : Bytes) : 128 ≤ (decodeRune c w).1 ∧ (decodeRune c w).1 < 0x110000 := by
  have hc' : 128 ≤ c.toNat := by
    have := hc; rw [UInt8.lt_iff_toNat_lt] at this; exact Nat.le_of_not_lt this
  unfold decodeRune
  rw [if_neg hc]
  split
  · next h =>
    obtain ⟨h1, h2⟩ := h
    rw [UInt8.le_iff_toNat_le] at h1 h2
    simp at h1 h2
    rcases w with _ | ⟨b, w⟩
    · simp [replacement]
    · by_cases h : second c b = true
      · simp only [h, if_true]
        have hb := b.toNat_lt
        simp only [second, Bool.and_eq_true, decide_eq_true_eq] at h
        rw [if_neg (by rintro rfl; simp at h2), if_neg (by rintro rfl; simp at h2), if_neg (by rintro rfl; simp at h2),
          if_neg (by rintro rfl; simp at h2)] at h
        rw [UInt8.le_iff_toNat_le, UInt8.le_iff_toNat_le] at h
        simp at h
        omega
      · simp [h, replacement]
  · split
    · next h =>
      obtain ⟨h1, h2⟩ := h
      rw [UInt8.le_iff_toNat_le] at h1 h2
      simp at h1 h2
      rcases w with _ | ⟨b, _ | ⟨d, w⟩⟩
      · simp [replacement]
      · simp [replacement]
      · by_cases h : (second c b && isCont d) = true
        · simp only [h, if_true]
          have hb := b.toNat_lt
          have hd := d.toNat_lt
          simp only [second, isCont, Bool.and_eq_true, decide_eq_true_eq] at h
          obtain ⟨⟨h3, _⟩, h5, _⟩ := h
          rw [UInt8.le_iff_toNat_le] at h3 h5
          simp at h5
          by_cases h0 : c = 224
          · subst h0
            simp at h3 ⊢
            omega
          · have : c.toNat ≠ 224 := fun e => h0 (UInt8.toNat_inj.mp (by rw [e]; rfl))
            omega
        · simp [h, replacement]
    · split
      · next h =>
        obtain ⟨h1, h2⟩ := h
        rw [UInt8.le_iff_toNat_le] at h1 h2
        simp at h1 h2
        rcases w with _ | ⟨b, _ | ⟨d, _ | ⟨e, w⟩⟩⟩
        · simp [replacement]
        · simp [replacement]
        · simp [replacement]
        · by_cases h : (second c b && isCont d && isCont e) = true
          · simp only [h, if_true]
            have hb := b.toNat_lt
            have hd := d.toNat_lt
            have he := e.toNat_lt
            simp only [second, isCont, Bool.and_eq_true, decide_eq_true_eq] at h
            obtain ⟨⟨⟨h3, h4⟩, h5, h6⟩, h7, h8⟩ := h
            rw [UInt8.le_iff_toNat_le] at h3 h4 h5 h6 h7 h8
            simp at h5 h6 h7 h8
            by_cases h0 : c = 240
            · subst h0
              simp at h3 h4 ⊢
              omega
            · have hn : c.toNat ≠ 240 := fun e => h0 (UInt8.toNat_inj.mp (by rw [e]; rfl))
              by_cases h9 : c = 244
              · subst h9
                simp at h3 h4 ⊢
                omega
              · have hn' : c.toNat ≠ 244 := fun e => h9 (UInt8.toNat_inj.mp (by rw [e]; rfl))
                have h3' : c.toNat ≤ 243 := by omega
                have hb' : b.toNat ≤ 191 := by
                  rw [if_neg (by rintro rfl; simp at h1), if_neg h9] at h4
                  simpa using h4
                omega
          · simp [h, replacement]
      · simp [replacement]

theorem ofNat_large {n : Nat} (h1 : 128 ≤ n) (h2 : n < 256) : ¬ UInt8.ofNat n < 128 := by
  rw [UInt8.lt_iff_toNat_lt, UInt8.toNat_ofNat_of_lt' (by simpa using h2)]
  simpa using h1

/-- The encoding of a rune that is not ASCII has no ASCII byte. -/
theorem encode_large {n : Nat} (h1 : 128 ≤ n) (h2 : n < 0x110000) : encodeRune n ≠ [] ∧ ∀ c ∈ encodeRune n, ¬ c < 128 := by
  unfold encodeRune
  rw [if_neg (by omega)]
  split
  · refine ⟨by simp, ?_⟩
    simp only [List.mem_cons, List.not_mem_nil, or_false]
    rintro c (rfl | rfl) <;> exact ofNat_large (by omega) (by omega)
  · split
    · refine ⟨by simp, ?_⟩
      simp only [List.mem_cons, List.not_mem_nil, or_false]
      rintro c (rfl | rfl | rfl) <;> exact ofNat_large (by omega) (by omega)
    · refine ⟨by simp, ?_⟩
      simp only [List.mem_cons, List.not_mem_nil, or_false]
      rintro c (rfl | rfl | rfl | rfl) <;> exact ofNat_large (by omega) (by omega)

theorem decode_skip {n : Nat} {x y : Bytes} (h : x.length = n) : decodeBody n (x ++ y) = decodeBody 0 y := by
  induction x generalizing n with
  | nil => simp at h; subst h; rfl
  | cons c x ih =>
    cases n with
    | zero => simp at h
    | succ n => rw [List.cons_append, decodeBody]; exact ih (by simpa using h)

theorem decode_body (k : Nat) (w t : Bytes) : decodeBody 0 (encodeBody k w ++ t) = some (coerce k w, t) := by
  induction w generalizing k with
  | nil => cases k <;> rfl
  | cons c w ih =>
    cases k with
    | succ k => rw [encodeBody, coerce]; exact ih k
    | zero =>
      rw [encodeBody, coerce]
      by_cases hc : c < 128
      · rw [if_pos hc, if_pos hc, List.append_assoc, decode_encode hc, ih]; rfl
      · rw [if_neg hc, if_neg hc]
        have hs := rune_size c w
        dsimp only
        by_cases h1 : (decodeRune c w).1 = replacement ∧ (decodeRune c w).2 = 1
        · rw [if_pos h1, h1.1, h1.2, List.append_assoc]
          have : decodeBody 0 (lit "\\ufffd" ++ (encodeBody 0 w ++ t)) =
              (decodeBody 0 (encodeBody 0 w ++ t)).map fun x => (encodeRune replacement ++ x.1, x.2) :=
            decode_hex (by decide) (by decide)
          rw [this, ih]; rfl
        · rw [if_neg h1]
          by_cases h2 : (decodeRune c w).1 = 0x2028 ∨ (decodeRune c w).1 = 0x2029
          · rw [if_pos h2, List.append_assoc]
            rcases h2 with h2 | h2 <;> rw [h2]
            · have : decodeBody 0 (lit "\\u202" ++ (hexDigit (UInt8.ofNat (0x2028 % 16)) :: encodeBody ((decodeRune c w).2 - 1) w ++ t)) =
                  (decodeBody 0 (encodeBody ((decodeRune c w).2 - 1) w ++ t)).map fun x => (encodeRune 0x2028 ++ x.1, x.2) :=
                decode_hex (by decide) (by decide)
              rw [this, ih]; rfl
            · have : decodeBody 0 (lit "\\u202" ++ (hexDigit (UInt8.ofNat (0x2029 % 16)) :: encodeBody ((decodeRune c w).2 - 1) w ++ t)) =
                  (decodeBody 0 (encodeBody ((decodeRune c w).2 - 1) w ++ t)).map fun x => (encodeRune 0x2029 ++ x.1, x.2) :=
                decode_hex (by decide) (by decide)
              rw [this, ih]; rfl
          · rw [if_neg h2, List.append_assoc]
            have hk : (decodeRune c w).2 = ((decodeRune c w).2 - 1) + 1 := by omega
            have hne : (decodeRune c w).2 ≠ 1 := by
              intro h
              refine h1 ⟨?_, h⟩
              revert h
              unfold decodeRune
              rw [if_neg hc]
              repeat' split
              all_goals simp
            have hd := hs.2.2 hne
            rw [hk, List.take_succ_cons, List.cons_append, Nat.add_sub_cancel, decodeBody.eq_def]
            have h34 : c ≠ 34 := by rintro rfl; exact hc (by decide)
            have h92 : c ≠ 92 := by rintro rfl; exact hc (by decide)
            have h32 : ¬ c < 32 := fun h => hc (by rw [UInt8.lt_iff_toNat_lt] at h ⊢; simp at h ⊢; omega)
            simp only [h34, h92, h32, hc, if_false, hd]
            rw [decode_skip (by rw [List.length_take]; omega), ih]
            rfl

/-- Decoding gives the string back, with the invalid bytes replaced. -/
theorem unmarshal_marshal (w : Bytes) : unmarshal (marshal w) = some (coerce 0 w) := by
  have := decode_body 0 w []
  rw [List.append_nil] at this
  have e : (marshal w).dropWhile isSpace = 34 :: encodeBody 0 w := rfl
  simp only [unmarshal, e, if_true, this]
  rfl

theorem coerce_ascii {w : Bytes} (h : ∀ c ∈ w, c < 128) : coerce 0 w = w := by
  induction w with
  | nil => rfl
  | cons c w ih => rw [coerce, if_pos (h c (by simp)), ih fun d hd => h d (by simp [hd])]

theorem of_coerce_ascii {w : Bytes} (h : ∀ c ∈ coerce 0 w, c < 128) : ∀ c ∈ w, c < 128 := by
  induction w with
  | nil => simp
  | cons c w ih =>
    rw [coerce] at h
    by_cases hc : c < 128
    · rw [if_pos hc] at h
      intro d hd
      rcases List.mem_cons.mp hd with rfl | hd
      · exact hc
      · exact ih (fun e he => h e (by simp [he])) d hd
    · rw [if_neg hc] at h
      exfalso
      obtain ⟨h1, h2⟩ := encode_large (rune_large hc w).1 (rune_large hc w).2
      obtain ⟨d, l, e⟩ := List.exists_cons_of_ne_nil h1
      exact h2 d (by rw [e]; simp) (h d (by rw [e]; simp))

theorem codec_ok : JsonOk codec := by
  intro w hw
  show unmarshal (marshal w) = some w
  rw [unmarshal_marshal, coerce_ascii]
  intro c hc
  have := (hw c hc).2
  rw [UInt8.le_iff_toNat_le] at this
  rw [UInt8.lt_iff_toNat_lt]
  simp at this ⊢
  omega

/-! ## The JSON texts of an ASCII string -/

theorem hexVal_iff {c : UInt8} {v : Nat} : hexVal c = some v ↔ Hex c v := by
  have hc := c.toNat_lt
  unfold hexVal Hex
  simp only [UInt8.le_iff_toNat_le, UInt8.toNat_ofNat]
  split
  · simp only [Option.some.injEq]; omega
  · split
    · simp only [Option.some.injEq]; omega
    · split
      · simp only [Option.some.injEq]; omega
      · simp only [reduceCtorEq, false_iff]; omega

theorem short_iff : ∀ e x : UInt8, short e = some x ↔ (e, x) ∈ shortEscapes := by
  intro e x
  unfold short shortEscapes
  simp only [List.mem_cons, Prod.mk.injEq, List.not_mem_nil, or_false]
  constructor
  · intro h
    (repeat' split at h) <;> simp_all
    rename_i h'
    rcases h' with rfl | rfl | rfl <;> simp_all
  · rintro (⟨rfl, rfl⟩ | ⟨rfl, rfl⟩ | ⟨rfl, rfl⟩ | ⟨rfl, rfl⟩ | ⟨rfl, rfl⟩ | ⟨rfl, rfl⟩ | ⟨rfl, rfl⟩ | ⟨rfl, rfl⟩) <;> rfl

theorem encode_small {n : Nat} (h : n < 128) : encodeRune n = [UInt8.ofNat n] := by rw [encodeRune, if_pos h]

theorem decode_short {e x : UInt8} (h : (e, x) ∈ shortEscapes) (w : Bytes) :
    decodeBody 0 (92 :: e :: w) = (decodeBody 0 w).map fun y => (x :: y.1, y.2) := by
  have hs := (short_iff e x).mpr h
  have he : e ≠ 117 := by rintro rfl; exact absurd hs (by simp [short])
  rw [decodeBody]
  simp only [show ¬ ((92 : UInt8) = 34) by decide, show ¬ ((92 : UInt8) < 32) by decide, if_true, if_false, he, hs]
  rfl

theorem decode_spelling {body w : Bytes} (h : Spelling body w) (rest : Bytes) : decodeBody 0 (body ++ 34 :: rest) = some (w, rest) := by
  induction h with
  | nil => rfl
  | @char c t w h1 h2 h3 h4 _ ih =>
    have h5 : ¬ c < 32 := by rw [UInt8.lt_iff_toNat_lt]; rw [UInt8.le_iff_toNat_le] at h1; omega
    rw [List.cons_append, decodeBody.eq_def]
    simp only [h3, h4, h5, h2, if_true, if_false, ih]
    rfl
  | short he _ ih =>
    rw [List.cons_append, List.cons_append, decode_short he, ih]; rfl
  | @hex a b x u v t w ha hb hx hx' _ ih =>
    have h4 : hex4 [48, 48, a, b] = some (16 * u + v) := by
      simp only [hex4, hexVal_iff.mpr ha, hexVal_iff.mpr hb, show hexVal 48 = some 0 from rfl]
      show some (((0 * 16 + 0) * 16 + u) * 16 + v) = _
      congr 1; omega
    have hlt : 16 * u + v < 128 := by rw [← hx]; rw [UInt8.lt_iff_toNat_lt] at hx'; exact hx'
    have := decode_hex (w := t ++ 34 :: rest) h4 (by simp [isSurrogate]; omega)
    simp only [List.cons_append]
    rw [this, ih, encode_small hlt, ← hx]
    simp

theorem drop_cons {α : Type} {n : Nat} {l : List α} (h : n < l.length) : ∃ x, l.drop n = x :: l.drop (n + 1) :=
  ⟨l[n], List.drop_eq_getElem_cons h⟩

theorem decodeBody_skip {n : Nat} {x : Bytes} {y : Bytes × Bytes} (h : decodeBody n x = some y) : decodeBody 0 (x.drop n) = some y := by
  induction n generalizing x with
  | zero => exact h
  | succ n ih =>
    cases x with
    | nil => exact absurd h (by simp [decodeBody])
    | cons c x => rw [decodeBody] at h; exact ih h

theorem spelling_of {t r rest : Bytes} (h : decodeBody 0 t = some (r, rest)) (hr : ∀ c ∈ r, c < 128) :
    ∃ body, t = body ++ 34 :: rest ∧ Spelling body r := by
  induction hl : t.length using Nat.strongRecOn generalizing t r with
  | _ n ih =>
    have large : ∀ {m k : Nat} {x : Bytes}, 128 ≤ m → m < 0x110000 →
        (decodeBody k x).map (fun y => (encodeRune m ++ y.1, y.2)) = some (r, rest) → False := by
      intro m k x h1 h2 he
      cases hd : decodeBody k x with
      | none => simp [hd] at he
      | some y =>
        rw [hd] at he
        simp only [Option.map_some, Option.some.injEq, Prod.mk.injEq] at he
        obtain ⟨h3, h4⟩ := encode_large h1 h2
        obtain ⟨d, l, e⟩ := List.exists_cons_of_ne_nil h3
        refine h4 d (by rw [e]; simp) (hr d ?_)
        rw [← he.1, e]; simp
    have next : ∀ {k : Nat} {x : UInt8} {y : Bytes}, (y.drop k).length < n →
        (decodeBody k y).map (fun z => (x :: z.1, z.2)) = some (r, rest) →
        ∃ body' r', r = x :: r' ∧ y.drop k = body' ++ 34 :: rest ∧ Spelling body' r' := by
      intro k x y h2 he
      cases hd : decodeBody k y with
      | none => simp [hd] at he
      | some z =>
        rw [hd] at he
        simp only [Option.map_some, Option.some.injEq, Prod.mk.injEq] at he
        obtain ⟨rfl, rfl⟩ := he
        obtain ⟨body, h3, h4⟩ := ih _ h2 (decodeBody_skip hd) (fun c hc => hr c (by simp [hc])) rfl
        exact ⟨body, z.1, rfl, h3, h4⟩
    cases t with
    | nil => exact absurd h (by simp [decodeBody])
    | cons c w =>
      rw [decodeBody.eq_def] at h
      simp only at h
      by_cases h34 : c = 34
      · subst h34
        simp at h
        obtain ⟨rfl, rfl⟩ := h
        exact ⟨[], rfl, .nil⟩
      rw [if_neg h34] at h
      by_cases h32 : c < 32
      · rw [if_pos h32] at h; exact absurd h (by simp)
      rw [if_neg h32] at h
      by_cases h92 : c = 92
      · subst h92
        rw [if_pos rfl] at h
        cases w with
        | nil => exact absurd h (by simp)
        | cons e q =>
          simp only at h
          by_cases he : e = 117
          · subst he
            rw [if_pos rfl] at h
            cases hx : hex4 q with
            | none => simp [hx] at h
            | some m =>
              simp only [hx] at h
              rcases q with _ | ⟨a, _ | ⟨b, _ | ⟨c, _ | ⟨d, q⟩⟩⟩⟩
              · exact absurd hx (by simp [hex4])
              · exact absurd hx (by simp [hex4])
              · exact absurd hx (by simp [hex4])
              · exact absurd hx (by simp [hex4])
              · obtain ⟨a', b', c', d', ha, hb, hc, hd, hm⟩ : ∃ a' b' c' d', hexVal a = some a' ∧ hexVal b = some b' ∧ hexVal c = some c' ∧ hexVal d = some d' ∧
                    ((a' * 16 + b') * 16 + c') * 16 + d' = m := by
                  simp only [hex4] at hx
                  cases ha : hexVal a <;> cases hb : hexVal b <;> cases hc : hexVal c <;> cases hd : hexVal d <;>
                    simp [ha, hb, hc, hd] at hx
                  exact ⟨_, _, _, _, rfl, rfl, rfl, rfl, hx⟩
                have bound : ∀ {x : UInt8} {v : Nat}, hexVal x = some v → v ≤ 15 := by
                  intro x v hv
                  rw [hexVal_iff, Hex] at hv
                  omega
                have hma := bound ha; have hmb := bound hb; have hmc := bound hc; have hmd := bound hd
                by_cases hs : isSurrogate m = true
                · exfalso
                  rw [if_pos hs] at h
                  cases hp : (getu4 (List.drop 4 (a :: b :: c :: d :: q))).bind (decodePair m) with
                  | none =>
                    simp only [hp] at h
                    exact large (by decide) (by decide) h
                  | some m' =>
                    simp only [hp] at h
                    have : 128 ≤ m' ∧ m' < 0x110000 := by
                      obtain ⟨z, _, hz⟩ := Option.bind_eq_some_iff.mp hp
                      rw [decodePair] at hz
                      split at hz
                      · simp only [Option.some.injEq] at hz; omega
                      · exact absurd hz (by simp)
                    exact large this.1 this.2 h
                · rw [if_neg hs] at h
                  by_cases hsm : m < 128
                  · rw [encode_small hsm] at h
                    have h' : (decodeBody 5 (117 :: a :: b :: c :: d :: q)).map (fun z => (UInt8.ofNat m :: z.1, z.2)) = some (r, rest) := h
                    obtain ⟨body, r', rfl, h3, h4⟩ := next (by simp at hl ⊢; omega) h'
                    have h3' : q = body ++ 34 :: rest := h3
                    have za : a' = 0 := by omega
                    have zb : b' = 0 := by omega
                    subst za; subst zb
                    have ea : a = 48 := by
                      have := hexVal_iff.mp ha
                      rw [Hex] at this
                      exact UInt8.toNat_inj.mp (by show a.toNat = 48; omega)
                    have eb : b = 48 := by
                      have := hexVal_iff.mp hb
                      rw [Hex] at this
                      exact UInt8.toNat_inj.mp (by show b.toNat = 48; omega)
                    subst ea; subst eb
                    have et : (UInt8.ofNat m).toNat = m := by exact UInt8.toNat_ofNat_of_lt' (by show m < 256; omega)
                    refine ⟨92 :: 117 :: 48 :: 48 :: c :: d :: body, by rw [h3']; simp, .hex (hexVal_iff.mp hc) (hexVal_iff.mp hd) ?_ ?_ h4⟩
                    · rw [et]; omega
                    · rw [UInt8.lt_iff_toNat_lt, et]; exact hsm
                  · exact absurd (large (by omega) (by omega) h) not_false
          · rw [if_neg he] at h
            cases hs : short e with
            | none => simp [hs] at h
            | some y =>
              simp only [hs] at h
              obtain ⟨body, r', rfl, h3, h4⟩ := next (by simp at hl ⊢; omega) h
              have h3' : q = body ++ 34 :: rest := h3
              exact ⟨92 :: e :: body, by rw [h3']; simp, .short ((short_iff e y).mp hs) h4⟩
      · rw [if_neg h92] at h
        by_cases h128 : c < 128
        · rw [if_pos h128] at h
          cases w with
          | nil => exact absurd h (by simp [decodeBody])
          | cons d w =>
            obtain ⟨body, r', rfl, h3, h4⟩ := next (by simp at hl ⊢; omega) h
            have h3' : d :: w = body ++ 34 :: rest := h3
            refine ⟨c :: body, by rw [h3']; simp, .char ?_ h128 h34 h92 h4⟩
            rw [UInt8.le_iff_toNat_le]
            rw [UInt8.lt_iff_toNat_lt] at h32
            exact Nat.le_of_not_lt h32
        · rw [if_neg h128] at h
          exact absurd (large (rune_large h128 w).1 (rune_large h128 w).2 h) not_false

theorem blank_iff {w : Bytes} : w.all isSpace = true ↔ Blank w := by
  simp [Blank, isSpace, or_assoc]

theorem dropWhile_blank {b w : Bytes} (h : Blank b) : (b ++ w).dropWhile isSpace = w.dropWhile isSpace := by
  induction b with
  | nil => rfl
  | cons c b ih =>
    have hc : isSpace c = true := by simpa [isSpace, or_assoc] using h c (by simp)
    rw [List.cons_append, List.dropWhile_cons, if_pos hc, ih fun d hd => h d (by simp [hd])]

theorem takeWhile_blank (w : Bytes) : Blank (w.takeWhile isSpace) := by
  induction w with
  | nil => simp [Blank]
  | cons c w ih =>
    rw [List.takeWhile_cons]
    split
    · next hc =>
      intro d hd
      rcases List.mem_cons.mp hd with rfl | hd
      · simpa [isSpace, or_assoc] using hc
      · exact ih d hd
    · simp [Blank]

/-- Which texts are decoded to an ASCII string. -/
theorem unmarshal_iff {t w : Bytes} (hw : ∀ c ∈ w, c < 128) :
    unmarshal t = some w ↔ JsonText t w ∨ (JsonNull t ∧ w = []) := by
  constructor
  · intro h
    have et := List.takeWhile_append_dropWhile (p := isSpace) (l := t)
    rw [unmarshal] at h
    cases hd : t.dropWhile isSpace with
    | nil => simp [hd] at h
    | cons c r =>
      simp only [hd] at h
      by_cases hc : c = 34
      · subst hc
        rw [if_pos rfl] at h
        cases hb : decodeBody 0 r with
        | none => simp [hb] at h
        | some y =>
          obtain ⟨a, rest⟩ := y
          simp only [hb] at h
          by_cases hs : rest.all isSpace = true
          · rw [if_pos hs] at h
            simp only [Option.some.injEq] at h
            subst h
            obtain ⟨body, e, hsp⟩ := spelling_of hb hw
            refine .inl ⟨_, body, rest, takeWhile_blank t, blank_iff.mp hs, hsp, ?_⟩
            rw [← e, ← hd, et]
          · rw [if_neg hs] at h; exact absurd h (by simp)
      · rw [if_neg hc] at h
        split at h
        · next hn =>
          simp only [Option.some.injEq] at h
          refine .inr ⟨⟨_, (c :: r).drop 4, takeWhile_blank t, blank_iff.mp hn.2, ?_⟩, h.symm⟩
          obtain ⟨z, hz⟩ := List.isPrefixOf_iff_prefix.mp hn.1
          have e4 : (c :: r).drop 4 = z := by rw [← hz]; rfl
          rw [e4, hz, ← hd, et]
        · exact absurd h (by simp)
  · rintro (⟨before, body, after, h1, h2, h3, rfl⟩ | ⟨⟨before, after, h1, h2, rfl⟩, rfl⟩)
    · rw [unmarshal, dropWhile_blank h1]
      have : (34 :: (body ++ 34 :: after)).dropWhile isSpace = 34 :: (body ++ 34 :: after) := rfl
      simp only [this, if_true, decode_spelling h3, blank_iff.mpr h2]
    · rw [unmarshal, dropWhile_blank h1]
      have : (lit "null" ++ after).dropWhile isSpace = 110 :: 117 :: 108 :: 108 :: after := rfl
      have h3 : (lit "null").isPrefixOf (110 :: 117 :: 108 :: 108 :: after) = true := by simp [lit, List.isPrefixOf]
      simp only [this, show ¬ ((110 : UInt8) = 34) by decide, if_false]
      rw [if_pos ⟨h3, by simpa using blank_iff.mpr h2⟩]

end Urn.Json
