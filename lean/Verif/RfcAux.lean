import Verif.SpecRfc
import Verif.PropsParse
/-!
# The grammars of the RFCs and `Spec.lean`
-/
set_option autoImplicit false
namespace Urn.Rfc
open Spec

/-! ## Languages of single characters -/

theorem alt_one (p q : UInt8 → Bool) : alt (one p) (one q) = one fun c => p c || q c := by
  funext w
  simp only [alt, one, Bool.or_eq_true, eq_iff_iff]
  constructor
  · rintro (⟨c, h, h'⟩ | ⟨c, h, h'⟩)
    · exact ⟨c, h, .inl h'⟩
    · exact ⟨c, h, .inr h'⟩
  · rintro ⟨c, h, h' | h'⟩
    · exact .inl ⟨c, h, h'⟩
    · exact .inr ⟨c, h, h'⟩

theorem one_congr {p q : UInt8 → Bool} (h : ∀ c, p c = q c) : one p = one q := by
  have : p = q := funext h
  rw [this]

theorem alt_assoc (A B C : Lang) : ((A ∕ B) ∕ C) = (A ∕ B ∕ C) := by
  funext w; simp only [alt, or_assoc]
theorem alt_comm (A B : Lang) : (A ∕ B) = (B ∕ A) := by
  funext w; simp only [alt, or_comm]

/-- A hexadecimal digit. -/
def isHex (c : UInt8) : Bool := isDigit c || (65 ≤ c && c ≤ 70) || (97 ≤ c && c ≤ 102)

theorem hex_alnum : ∀ c, isHex c = true → isAlnum c = true := forall_byte (by decide +kernel)
theorem hex_ne : ∀ c, isHex c = true → c ≠ 37 := forall_byte (by decide +kernel)

theorem HEXDIG_eq : HEXDIG = one isHex := by
  rw [HEXDIG, DIGIT, range, range, range, alt_one, alt_one]
  exact one_congr (forall_byte (by decide +kernel))

theorem hex_eq : R2141.hex = one isHex := by
  rw [R2141.hex, range, range, range, alt_one, alt_one]
  exact one_congr (forall_byte (by decide +kernel))

theorem one_single {p : UInt8 → Bool} {c : UInt8} : one p [c] ↔ p c = true := by simp [one]

theorem alphanum_eq : R8141.alphanum = one isAlnum := by
  rw [R8141.alphanum, ALPHA, DIGIT, range, range, range, alt_one, alt_one]
  exact one_congr (forall_byte (by decide +kernel))
theorem ldh_eq : R8141.ldh = one isNidChar := by
  rw [R8141.ldh, alphanum_eq, oneOf, alt_one]
  exact one_congr (forall_byte (by decide +kernel))
theorem letNum_eq : R2141.letNum = one isAlnum := by
  rw [R2141.letNum, range, range, range, alt_one, alt_one]
  exact one_congr (forall_byte (by decide +kernel))
theorem letNumHyp_eq : R2141.letNumHyp = one isNidChar := by
  rw [R2141.letNumHyp, letNum_eq, oneOf, alt_one]
  exact one_congr (forall_byte (by decide +kernel))

/-- A character of RFC 2141, reserved ones included. -/
def isTrans (c : UInt8) : Bool := isSss c || c == 37 || c == 47 || c == 63 || c == 35

theorem trans_eq : R2141.trans = one isTrans := by
  rw [R2141.trans, letNum_eq, R2141.other, R2141.reserved, oneOf, oneOf, alt_one, alt_one]
  exact one_congr (forall_byte (by decide +kernel))
theorem sss_eq : (R2141.letNum ∕ R2141.other) = one isSss := by
  rw [letNum_eq, R2141.other, oneOf, alt_one]
  exact one_congr (forall_byte (by decide +kernel))

theorem percent_eq : oneOf "%" = fun w => w = [37] := by
  funext w
  simp only [oneOf, one, eq_iff_iff]
  have : ∀ c : UInt8, (lit "%").contains c = true ↔ c = 37 := forall_byte (by decide +kernel)
  simp only [this]
  constructor
  · rintro ⟨c, h, rfl⟩; exact h
  · rintro rfl; exact ⟨_, rfl, rfl⟩

theorem pct_eq : pctEncoded = fun w => ∃ a b, w = [37, a, b] ∧ isHex a = true ∧ isHex b = true := by
  funext w
  simp only [pctEncoded, percent_eq, HEXDIG_eq, cat, one, eq_iff_iff]
  constructor
  · rintro ⟨u, v, rfl, rfl, u', v', rfl, ⟨a, rfl, ha⟩, ⟨b, rfl, hb⟩⟩
    exact ⟨a, b, rfl, ha, hb⟩
  · rintro ⟨a, b, rfl, ha, hb⟩
    exact ⟨[37], [a, b], rfl, rfl, [a], [b], rfl, ⟨a, rfl, ha⟩, ⟨b, rfl, hb⟩⟩

theorem pct2141_eq : (oneOf "%" ⬝ R2141.hex ⬝ R2141.hex) = pctEncoded := by
  rw [pctEncoded, hex_eq, HEXDIG_eq]

/-- A character of the class, or an escape. -/
abbrev orPct (p : UInt8 → Bool) : Lang := one p ∕ pctEncoded

theorem orPct_alt (p q : UInt8 → Bool) : (orPct p ∕ one q) = orPct fun c => p c || q c := by
  rw [orPct, orPct, alt_assoc, alt_comm pctEncoded, ← alt_assoc, alt_one]

theorem pchar_eq : pchar = orPct isPchar := by
  rw [pchar, unreserved, ALPHA, DIGIT, subDelims, range, range, range, oneOf, oneOf, oneOf]
  rw [alt_one, alt_one, alt_one, alt_comm pctEncoded, alt_one, ← alt_assoc, alt_one]
  rw [orPct]
  congr 1
  exact one_congr (forall_byte (by decide +kernel))

theorem pcharSlash_eq : (pchar ∕ oneOf "/") = orPct isPcharSlash := by
  rw [pchar_eq, oneOf, orPct_alt, orPct, orPct]
  congr 1
  exact one_congr (forall_byte (by decide +kernel))
theorem pcharSlashQ_eq : (pchar ∕ oneOf "/" ∕ oneOf "?") = orPct isPcharSlashQ := by
  rw [pchar_eq, oneOf, oneOf, alt_one, orPct_alt, orPct, orPct]
  congr 1
  exact one_congr (forall_byte (by decide +kernel))
theorem urnSyntax_eq : (R2141.letNum ∕ R2141.other ∕ oneOf "%" ⬝ R2141.hex ⬝ R2141.hex) = orPct isSss := by
  rw [← alt_assoc, sss_eq, pct2141_eq]
theorem urnChars_eq : R2141.urnChars = orPct isTrans := by
  rw [R2141.urnChars, trans_eq, pct2141_eq]

/-! ## Repetition -/

theorem times_one {p : UInt8 → Bool} {n : Nat} {w : Bytes} : Times (one p) n w ↔ w.length = n ∧ ∀ c ∈ w, p c = true := by
  constructor
  · intro h
    induction h with
    | zero => simp
    | succ h _ ih =>
      obtain ⟨c, rfl, hc⟩ := h
      refine ⟨by simp [ih.1], ?_⟩
      intro d hd
      simp only [List.singleton_append, List.mem_cons] at hd
      rcases hd with rfl | hd
      · exact hc
      · exact ih.2 d hd
  · rintro ⟨rfl, h⟩
    induction w with
    | nil => exact .zero
    | cons c w ih =>
      exact .succ (u := [c]) ⟨c, rfl, h c (by simp)⟩ (ih fun d hd => h d (by simp [hd]))

theorem rep_one {p : UInt8 → Bool} {lo hi : Nat} {w : Bytes} :
    rep lo hi (one p) w ↔ lo ≤ w.length ∧ w.length ≤ hi ∧ ∀ c ∈ w, p c = true := by
  simp only [rep, times_one]
  constructor
  · rintro ⟨n, h1, h2, rfl, h⟩; exact ⟨h1, h2, h⟩
  · rintro ⟨h1, h2, h⟩; exact ⟨_, h1, h2, rfl, h⟩

/-- `(cls | '%' hex hex)*` -/
inductive HexSeq (cls : UInt8 → Bool) : Bytes → Prop where
  | nil : HexSeq cls []
  | char {c : UInt8} {w : Bytes} : cls c = true → HexSeq cls w → HexSeq cls (c :: w)
  | pct {a b : UInt8} {w : Bytes} : isHex a = true → isHex b = true → HexSeq cls w → HexSeq cls (37 :: a :: b :: w)

theorem reps_hex {p : UInt8 → Bool} {w : Bytes} : reps 0 (orPct p) w ↔ HexSeq p w := by
  constructor
  · rintro ⟨n, h0, h⟩
    clear h0
    induction h with
    | zero => exact .nil
    | succ h _ ih =>
      rcases h with ⟨c, rfl, hc⟩ | h
      · exact .char hc ih
      · rw [pct_eq] at h
        obtain ⟨a, b, rfl, ha, hb⟩ := h
        exact .pct ha hb ih
  · intro h
    induction h with
    | nil => exact ⟨0, Nat.le_refl _, .zero⟩
    | char hc _ ih =>
      obtain ⟨n, _, h⟩ := ih
      exact ⟨n + 1, Nat.zero_le _, .succ (u := [_]) (.inl ⟨_, rfl, hc⟩) h⟩
    | @pct a b w ha hb _ ih =>
      obtain ⟨n, _, h⟩ := ih
      refine ⟨n + 1, Nat.zero_le _, .succ (u := [37, a, b]) (.inr ?_) h⟩
      rw [pct_eq]; exact ⟨a, b, rfl, ha, hb⟩

theorem times_ne {A : Lang} (hA : ¬ A []) {n : Nat} {w : Bytes} (h : Times A n w) : w = [] ↔ n = 0 := by
  cases h with
  | zero => simp
  | succ h _ =>
    constructor
    · intro e
      rw [List.append_eq_nil_iff] at e
      exact absurd (e.1 ▸ h) hA
    · intro e; exact absurd e (by omega)

theorem orPct_ne (p : UInt8 → Bool) : ¬ orPct p [] := by
  rintro (⟨_, h, _⟩ | h)
  · exact absurd h (by simp)
  · rw [pct_eq] at h; obtain ⟨_, _, h, _⟩ := h; exact absurd h (by simp)

theorem reps1_hex {p : UInt8 → Bool} {w : Bytes} : reps 1 (orPct p) w ↔ w ≠ [] ∧ HexSeq p w := by
  rw [← reps_hex]
  constructor
  · rintro ⟨n, h1, h⟩
    exact ⟨fun e => by have := (times_ne (orPct_ne p) h).mp e; omega, n, Nat.zero_le _, h⟩
  · rintro ⟨hw, n, _, h⟩
    refine ⟨n, ?_, h⟩
    rcases Nat.eq_zero_or_pos n with rfl | h'
    · exact absurd ((times_ne (orPct_ne p) h).mpr rfl) hw
    · exact h'

/-! ## Escapes -/

theorem HexSeq.pctSeq {p : UInt8 → Bool} {w : Bytes} (h : HexSeq p w) : PctSeq p w := by
  induction h with
  | nil => exact .nil
  | char hc _ ih => exact .char hc ih
  | pct ha hb _ ih => exact .pct (hex_alnum _ ha) (hex_alnum _ hb) ih

theorem hexEscapes_iff {s : Bytes} : HexEscapes s ↔
    ∀ a b, s = a ++ 37 :: b → ∃ x y t, b = x :: y :: t ∧ isHex x = true ∧ isHex y = true := by
  simp only [HexEscapes, HEXDIG_eq, one_single]

theorem hexEscapes_nil : HexEscapes [] := by
  intro a b h; exact absurd h (by simp)

theorem hexEscapes_suffix {a b : Bytes} (h : HexEscapes (a ++ b)) : HexEscapes b := by
  intro x y e
  exact h (a ++ x) y (by rw [e, List.append_assoc])

theorem hexEscapes_cons {c : UInt8} (hc : c ≠ 37) {b : Bytes} : HexEscapes (c :: b) ↔ HexEscapes b := by
  constructor
  · exact fun h => hexEscapes_suffix (a := [c]) h
  · intro h x y e
    cases x with
    | nil => simp only [List.nil_append, List.cons.injEq] at e; exact absurd e.1 hc
    | cons d x =>
      simp only [List.cons_append, List.cons.injEq] at e
      exact h x y e.2

theorem hexEscapes_pct {a b : UInt8} {w : Bytes} (ha : isHex a = true) (hb : isHex b = true) (h : HexEscapes w) :
    HexEscapes (37 :: a :: b :: w) := by
  have h' : HexEscapes (a :: b :: w) := (hexEscapes_cons (hex_ne _ ha)).mpr ((hexEscapes_cons (hex_ne _ hb)).mpr h)
  intro x y e
  cases x with
  | nil =>
    simp only [List.nil_append, List.cons.injEq, true_and] at e
    subst e
    rw [HEXDIG_eq]
    exact ⟨a, b, w, rfl, one_single.mpr ha, one_single.mpr hb⟩
  | cons d x =>
    simp only [List.cons_append, List.cons.injEq] at e
    exact h' x y e.2

theorem hexEscapes_plain {a : Bytes} (ha : ∀ c ∈ a, c ≠ 37) {b : Bytes} : HexEscapes (a ++ b) ↔ HexEscapes b := by
  induction a with
  | nil => simp
  | cons c a ih =>
    rw [List.cons_append, hexEscapes_cons (ha c (by simp)), ih fun d hd => ha d (by simp [hd])]

theorem hexEscapes_none {s : Bytes} (h : ∀ c ∈ s, c ≠ 37) : HexEscapes s := by
  have := (hexEscapes_plain h (b := [])).mpr hexEscapes_nil
  simpa using this

/-- In a text whose escapes are hexadecimal, a part made of characters and escapes. -/
theorem PctSeq.hexSeq {p : UInt8 → Bool} (hp : p 37 = false) {w : Bytes} (h : PctSeq p w) {b : Bytes} :
    HexEscapes (w ++ b) ↔ HexSeq p w ∧ HexEscapes b := by
  induction h with
  | nil => exact ⟨fun h => ⟨.nil, h⟩, fun h => h.2⟩
  | @char c w hc _ ih =>
    have hne : c ≠ 37 := by rintro rfl; rw [hp] at hc; exact absurd hc (by decide)
    rw [List.cons_append, hexEscapes_cons hne, ih]
    constructor
    · exact fun h => ⟨.char hc h.1, h.2⟩
    · rintro ⟨h1, h2⟩
      cases h1 with
      | char _ h => exact ⟨h, h2⟩
      | pct _ _ _ => exact absurd rfl hne
  | @pct x y w hx hy _ ih =>
    simp only [List.cons_append]
    constructor
    · intro h
      obtain ⟨x', y', t, e, h1, h2⟩ := hexEscapes_iff.mp h [] _ rfl
      simp only [List.cons.injEq] at e
      obtain ⟨rfl, rfl, rfl⟩ := e
      have := ih.mp (hexEscapes_suffix (a := [37, x, y]) h)
      exact ⟨.pct h1 h2 this.1, this.2⟩
    · rintro ⟨h1, h2⟩
      cases h1 with
      | char h _ => rw [hp] at h; exact absurd h (by decide)
      | pct h3 h4 h5 => exact hexEscapes_pct h3 h4 (ih.mpr ⟨h5, h2⟩)

theorem HexSeq.hexEscapes {p : UInt8 → Bool} (hp : p 37 = false) {w b : Bytes} (h : HexSeq p w) (hb : HexEscapes b) :
    HexEscapes (w ++ b) := (PctSeq.hexSeq hp h.pctSeq).mpr ⟨h, hb⟩

theorem pctSeq1_seq {p q : UInt8 → Bool} (hpq : ∀ c, p c = true → q c = true) {w : Bytes} (h : PctSeq1 p q w) : PctSeq q w := by
  cases h with
  | char hc h => exact .char (hpq _ hc) h
  | pct ha hb h => exact .pct ha hb h

/-- `(first | escape) (cls | escape)*` in the RFCs and in `Spec.lean`. -/
theorem cat_hex {p q : UInt8 → Bool} (hp : p 37 = false) (hpq : ∀ c, p c = true → q c = true) (hq : q 37 = false) {w : Bytes} :
    (orPct p ⬝ reps 0 (orPct q)) w ↔ PctSeq1 p q w ∧ HexSeq q w := by
  constructor
  · rintro ⟨u, v, rfl, hu, hv⟩
    rw [reps_hex] at hv
    rcases hu with ⟨c, rfl, hc⟩ | hu
    · exact ⟨.char hc hv.pctSeq, .char (hpq _ hc) hv⟩
    · rw [pct_eq] at hu
      obtain ⟨a, b, rfl, ha, hb⟩ := hu
      exact ⟨.pct (hex_alnum _ ha) (hex_alnum _ hb) hv.pctSeq, .pct ha hb hv⟩
  · rintro ⟨h1, h2⟩
    cases h1 with
    | @char c w hc _ =>
      have hne : c ≠ 37 := by rintro rfl; rw [hp] at hc; exact absurd hc (by decide)
      cases h2 with
      | char _ h => exact ⟨[c], w, rfl, .inl ⟨c, rfl, hc⟩, reps_hex.mpr h⟩
      | pct _ _ _ => exact absurd rfl hne
    | @pct a b w _ _ _ =>
      cases h2 with
      | char h _ => rw [hq] at h; exact absurd h (by decide)
      | pct ha hb h => exact ⟨[37, a, b], w, rfl, .inr (by rw [pct_eq]; exact ⟨a, b, rfl, ha, hb⟩), reps_hex.mpr h⟩

/-! ## The parts -/

theorem str_urn {w : Bytes} : str "urn" w ↔ IsUrn w := by
  rw [str, IsUrn]; exact Iff.rfl

theorem str_colon {w : Bytes} : str ":" w ↔ w = [58] := by
  rw [str]
  have h : ∀ c : UInt8, lower c = 58 ↔ c = 58 := forall_byte (by decide +kernel)
  have e : lowerAll (lit ":") = [58] := by decide
  rw [e]
  cases w with
  | nil => simp [lowerAll]
  | cons c w => simp [lowerAll, h]

theorem str_hash {w : Bytes} : str "#" w ↔ w = lit "#" := by
  rw [str]
  have h : ∀ c : UInt8, lower c = 35 ↔ c = 35 := forall_byte (by decide +kernel)
  have e : lowerAll (lit "#") = [35] := by decide
  have e' : lit "#" = [35] := by decide
  rw [e, e']
  cases w with
  | nil => simp [lowerAll]
  | cons c w => simp [lowerAll, h]

theorem lower_lit2 : (∀ c : UInt8, lower c = 63 ↔ c = 63) ∧ (∀ c : UInt8, lower c = 43 ↔ c = 43) ∧ (∀ c : UInt8, lower c = 61 ↔ c = 61) :=
  ⟨forall_byte (by decide +kernel), forall_byte (by decide +kernel), forall_byte (by decide +kernel)⟩

theorem two_cases {α : Type} (w : List α) : w = [] ∨ (∃ c, w = [c]) ∨ ∃ c d t, w = c :: d :: t := by
  match w with
  | [] => simp
  | [c] => simp
  | c :: d :: t => simp

theorem str_plus {w : Bytes} : str "?+" w ↔ w = lit "?+" := by
  have e : lowerAll (lit "?+") = [63, 43] := by decide
  have e' : lit "?+" = [63, 43] := by decide
  rw [str, e, e']
  rcases two_cases w with rfl | ⟨c, rfl⟩ | ⟨c, d, t, rfl⟩ <;> simp [lowerAll, lower_lit2]

theorem str_eq {w : Bytes} : str "?=" w ↔ w = lit "?=" := by
  have e : lowerAll (lit "?=") = [63, 61] := by decide
  have e' : lit "?=" = [63, 61] := by decide
  rw [str, e, e']
  rcases two_cases w with rfl | ⟨c, rfl⟩ | ⟨c, d, t, rfl⟩ <;> simp [lowerAll, lower_lit2]

theorem str_urnColon {w : Bytes} : str "urn:" w ↔ ∃ p, IsUrn p ∧ w = p ++ [58] := by
  have e : lowerAll (lit "urn:") = lit "urn" ++ [58] := by decide
  have h : ∀ c : UInt8, lower c = 58 ↔ c = 58 := forall_byte (by decide +kernel)
  rw [str, e]
  constructor
  · intro hw
    obtain ⟨p, t, rfl, hp, ht⟩ := List.map_eq_append_iff.mp hw
    refine ⟨p, hp, ?_⟩
    cases t with
    | nil => exact absurd ht (by simp)
    | cons c t =>
      simp only [List.map_cons, List.cons.injEq, List.map_eq_nil_iff, h] at ht
      rw [ht.1, ht.2]
  · rintro ⟨p, hp, rfl⟩
    simp only [lowerAll, List.map_append]
    rw [show List.map lower p = lit "urn" from hp]; rfl

theorem alnum_nid : ∀ c, isAlnum c = true → isNidChar c = true := forall_byte (by decide +kernel)
theorem nid_alnum : ∀ c, isNidChar c = true → c ≠ 45 → isAlnum c = true := forall_byte (by decide +kernel)
theorem alnum_dash : ∀ c, isAlnum c = true → c ≠ 45 := forall_byte (by decide +kernel)
theorem nid_ne : ∀ c, isNidChar c = true → c ≠ 37 := forall_byte (by decide +kernel)

theorem nid8141_iff {w : Bytes} : R8141.NID w ↔
    2 ≤ w.length ∧ w.length ≤ 32 ∧ (∀ c ∈ w, isNidChar c = true) ∧ w.head? ≠ some 45 ∧ w.getLast? ≠ some 45 := by
  rw [R8141.NID, alphanum_eq, ldh_eq]
  constructor
  · rintro ⟨_, _, rfl, ⟨a, rfl, ha⟩, v, _, rfl, hv, ⟨b, rfl, hb⟩⟩
    rw [rep_one] at hv
    refine ⟨by simp, by simp; omega, ?_, by simpa using alnum_dash a ha, ?_⟩
    · intro c hc
      simp only [List.mem_append, List.mem_singleton] at hc
      rcases hc with rfl | hc | rfl
      · exact alnum_nid _ ha
      · exact hv.2.2 c hc
      · exact alnum_nid _ hb
    · rw [← List.append_assoc, List.getLast?_append]
      simpa using alnum_dash b hb
  · rintro ⟨h2, h32, hc, hf, hl⟩
    cases w with
    | nil => exact absurd h2 (by simp)
    | cons a w =>
      rcases List.eq_nil_or_concat w with rfl | ⟨v, b, rfl⟩
      · exact absurd h2 (by simp)
      · rw [List.concat_eq_append] at *
        refine ⟨[a], v ++ [b], rfl, ⟨a, rfl, nid_alnum a (hc a (by simp)) (by simpa using hf)⟩, v, [b], rfl, ?_, ⟨b, rfl, nid_alnum b (hc b (by simp)) ?_⟩⟩
        · rw [rep_one]
          refine ⟨Nat.zero_le _, by simp at h32; omega, fun c h => hc c (by simp [h])⟩
        · rw [← List.cons_append, List.getLast?_append] at hl
          simpa using hl

theorem nid2141_iff {w : Bytes} : R2141.NID w ↔
    w ≠ [] ∧ w.length ≤ 32 ∧ (∀ c ∈ w, isNidChar c = true) ∧ w.head? ≠ some 45 := by
  rw [R2141.NID, letNum_eq, letNumHyp_eq]
  constructor
  · rintro ⟨_, v, rfl, ⟨a, rfl, ha⟩, hv⟩
    have hv' : v.length ≤ 31 ∧ ∀ c ∈ v, isNidChar c = true := by
      rcases hv with rfl | hv
      · simp
      · rw [rep_one] at hv; exact hv.2
    refine ⟨by simp, by simp; omega, ?_, by simpa using alnum_dash a ha⟩
    intro c hc
    simp only [List.mem_append, List.mem_singleton] at hc
    rcases hc with rfl | hc
    · exact alnum_nid _ ha
    · exact hv'.2 c hc
  · rintro ⟨hne, h32, hc, hf⟩
    cases w with
    | nil => exact absurd rfl hne
    | cons a w =>
      refine ⟨[a], w, rfl, ⟨a, rfl, nid_alnum a (hc a (by simp)) (by simpa using hf)⟩, ?_⟩
      by_cases hw : w = []
      · exact .inl hw
      · refine .inr (rep_one.mpr ⟨List.length_pos_iff.mpr hw, by simpa using h32, fun c h => hc c (by simp [h])⟩)

/-! ## RFC 2141 -/

theorem trans_all {w : Bytes} : HexSeq isTrans w ↔ ∀ c ∈ w, isTrans c = true := by
  have hx : ∀ c, isHex c = true → isTrans c = true := forall_byte (by decide +kernel)
  constructor
  · intro h
    induction h with
    | nil => simp
    | char hc _ ih =>
      intro d hd
      rcases List.mem_cons.mp hd with rfl | hd
      · exact hc
      · exact ih d hd
    | pct ha hb _ ih =>
      intro d hd
      rcases List.mem_cons.mp hd with rfl | hd
      · decide
      rcases List.mem_cons.mp hd with rfl | hd
      · exact hx _ ha
      rcases List.mem_cons.mp hd with rfl | hd
      · exact hx _ hb
      · exact ih d hd
  · intro h
    induction w with
    | nil => exact .nil
    | cons c w ih => exact .char (h c (by simp)) (ih fun d hd => h d (by simp [hd]))

theorem trans_sss : ∀ c, isTrans c = true → c ≠ 47 → c ≠ 63 → c ≠ 35 → c ≠ 37 → isSss c = true := forall_byte (by decide +kernel)
theorem sss_trans : ∀ c, isSss c = true → isTrans c = true ∧ c ≠ 47 ∧ c ≠ 63 ∧ c ≠ 35 := forall_byte (by decide +kernel)
theorem hex_sss : ∀ c, isHex c = true → isSss c = true := forall_byte (by decide +kernel)

/-- `/`, `?` and `#` do not occur. -/
def NoReserved (s : Bytes) : Prop := ∀ c ∈ s, c ≠ 47 ∧ c ≠ 63 ∧ c ≠ 35

/-- Without reserved characters and with hexadecimal escapes, the two NSS productions agree. -/
theorem nss_trans {w : Bytes} : HexSeq isSss w ↔ HexSeq isTrans w ∧ HexEscapes w ∧ NoReserved w := by
  constructor
  · intro h
    have hh : HexEscapes w := by simpa using HexSeq.hexEscapes (by decide) h hexEscapes_nil
    refine ⟨?_, hh, ?_⟩
    · clear hh
      induction h with
      | nil => exact .nil
      | char hc _ ih => exact .char (sss_trans _ hc).1 ih
      | pct ha hb _ ih => exact .pct ha hb ih
    · clear hh
      induction h with
      | nil => intro c hc; exact absurd hc (by simp)
      | char hc _ ih =>
        intro d hd
        rcases List.mem_cons.mp hd with rfl | hd
        · exact (sss_trans _ hc).2
        · exact ih d hd
      | pct ha hb _ ih =>
        intro d hd
        rcases List.mem_cons.mp hd with rfl | hd
        · decide
        rcases List.mem_cons.mp hd with rfl | hd
        · exact (sss_trans _ (hex_sss _ ha)).2
        rcases List.mem_cons.mp hd with rfl | hd
        · exact (sss_trans _ (hex_sss _ hb)).2
        · exact ih d hd
  · rintro ⟨h1, h2, h3⟩
    rw [trans_all] at h1
    induction hn : w.length using Nat.strongRecOn generalizing w with
    | ind n ih =>
      subst hn
      cases w with
      | nil => exact .nil
      | cons c w =>
        by_cases hc : c = 37
        · subst hc
          obtain ⟨x, y, t, rfl, hx, hy⟩ := hexEscapes_iff.mp h2 [] w rfl
          refine .pct hx hy (ih _ ?_ (fun d hd => h1 d (by simp [hd]))
            (hexEscapes_suffix (a := [37, x, y]) h2) (fun d hd => h3 d (by simp [hd])) rfl)
          simp only [List.length_cons]; omega
        · have h4 := h3 c (by simp)
          refine .char (trans_sss c (h1 c (by simp)) h4.1 h4.2.1 h4.2.2 hc) (ih _ ?_ (fun d hd => h1 d (by simp [hd]))
            ((hexEscapes_cons hc).mp h2) (fun d hd => h3 d (by simp [hd])) rfl)
          simp only [List.length_cons]; omega

end Urn.Rfc
