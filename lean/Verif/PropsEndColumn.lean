import Verif.PropsColumn
import Verif.PropsEnd
/-!
# More about C74: the columns of the messages

As in `PropsEnd.lean` there is nothing of the model in these statements.
-/
set_option autoImplicit false
namespace Urn.GoLang
open Spec

/-- Some text of the grammar of the mode starts with `w`. -/
def Extends (mode : ParsingMode) (w : Bytes) : Prop := ∃ t i x, Splits mode (w ++ t) i x

/-- The longest prefix of `s` with which a text of the grammar starts has `n` bytes. -/
structure Furthest (mode : ParsingMode) (s : Bytes) (n : Nat) : Prop where
  le : n ≤ s.length
  can : Extends mode (s.take n)
  most : ∀ k, n < k → k ≤ s.length → ¬ Extends mode (s.take k)

/-- The column in a message of kind `k`, if a text of the grammar starts with at most `n` bytes of `s`. -/
structure ColumnOf (s : Bytes) (k : ErrKind) (n col : Nat) : Prop where
  /-- The identifier `urn`: its colon, wherever the first fault is. -/
  reserved : k = .noUrnWithinID → col = 7 ∧ n ≤ 7
  /-- A SCIM URN that is not complete: its last byte. -/
  incomplete : k = .scimOtherIncomplete → n = s.length ∧ col + 1 = n
  /-- An ill-formed informal identifier: one less. -/
  informal : k = .informalID8141 → col + 1 = n
  /-- A component that begins with a question mark: one or two more. -/
  mark : ∀ c t, (k = .rComponentStart8141 ∨ k = .malformedRComp8141 ∨ k = .qComponentStart8141 ∨ k = .malformedQComp8141) → BeginsWithMark s n c t →
    col = if t.head? = some c then n + 2 else n + 1
  /-- Otherwise: where the first fault is. -/
  other : k ≠ .noUrnWithinID → k ≠ .scimOtherIncomplete → k ≠ .informalID8141 →
    ¬ ((k = .rComponentStart8141 ∨ k = .malformedRComp8141 ∨ k = .qComponentStart8141 ∨ k = .malformedQComp8141) ∧ ∃ c t, BeginsWithMark s n c t) → col = n

theorem extends_iff {mode : ParsingMode} (hk : KnownMode mode) {w : Bytes} : Extends mode w ↔ Viable mode w := by
  constructor
  · rintro ⟨t, i, x, h⟩
    obtain ⟨-, u, hu, -⟩ := h.urn
    exact ⟨t, u, hu⟩
  · rintro ⟨t, h⟩
    exact ⟨t, accepts_splits hk h⟩

theorem furthest_of {mode : ParsingMode} (hk : KnownMode mode) {s : Bytes} {n : Nat} (h : LongestViable mode s n) : Furthest mode s n :=
  ⟨h.le, (extends_iff hk).2 h.viable, fun k h1 h2 h3 => h.longest k h1 h2 ((extends_iff hk).1 h3)⟩

/-- There is a longest prefix. -/
theorem longest_exists {mode : ParsingMode} (h0 : Viable mode []) (s : Bytes) (m : Nat) (hm : m ≤ s.length)
    (h : ∀ k, m < k → k ≤ s.length → ¬ Viable mode (s.take k)) : ∃ n, n ≤ m ∧ LongestViable mode s n := by
  induction m with
  | zero => exact ⟨0, Nat.le_refl _, hm, by simpa using h0, h⟩
  | succ m ih =>
    by_cases hv : Viable mode (s.take (m + 1))
    · exact ⟨m + 1, Nat.le_refl _, hm, hv, h⟩
    · obtain ⟨n, h1, h2⟩ := ih (by omega) (fun k hk hl => by
        by_cases hk' : k = m + 1
        · rw [hk']; exact hv
        · exact h k (by omega) hl)
      exact ⟨n, by omega, h2⟩

/-- The column of every error, by the grammar. -/
theorem column_of {mode : ParsingMode} (hk : KnownMode mode) {s : Bytes} {k : ErrKind} {col : Nat} (h : RejectsWith mode s ⟨k, (col : Int)⟩) :
    ∃ n, LongestViable mode s n ∧ ColumnOf s k n col := by
  rcases hk with rfl | rfl | rfl
  · have hw := (C46_2141 s k).1 ⟨_, h⟩
    by_cases hr : k = .noUrnWithinID
    · obtain ⟨h1, h2, -, h4⟩ := C33_reserved_2141 s _ h hr
      dsimp only at h1
      have hl : 7 < s.length := (List.getElem?_eq_some_iff.1 h2).1
      obtain ⟨n, h5, h6⟩ := longest_exists (mode := RFC2141Only) ⟨Cases.s2141, _, Cases.p2141⟩ s 7 (by omega) (fun j hj hj' ⟨t, ht⟩ => by
        refine h4 ⟨(s.take j).drop 8 ++ t, ?_⟩
        have e : s.take j = s.take 8 ++ (s.take j).drop 8 := by
          have := List.take_append_drop 8 (s.take j)
          rw [List.take_take, Nat.min_eq_left (by omega)] at this
          exact this.symm
        rw [← List.append_assoc, ← e]
        exact ht)
      subst hr
      exact ⟨n, h6, fun _ => ⟨by omega, h5⟩, by simp, by simp, by simp, by simp⟩
    · obtain ⟨n, h1, h2⟩ := C33_first_offending_2141 s _ h hr
      dsimp only at h1
      have hc : col = n := by omega
      refine ⟨n, h2, fun e => absurd e hr, ?_, ?_, ?_, fun _ _ _ _ => hc⟩
      · rintro rfl; exact hw.elim
      · rintro rfl; exact hw.elim
      · rintro c t (rfl | rfl | rfl | rfl) <;> exact hw.elim
  · have hw := (C46_7643 s k).1 ⟨_, h⟩
    obtain ⟨h1, h2⟩ := C33_first_offending_7643 s _ h
    dsimp only at h1 h2
    by_cases hi : k = .scimOtherIncomplete
    · obtain ⟨h3, h4⟩ := h2 hi
      subst hi
      exact ⟨_, h4, by simp, fun _ => ⟨rfl, by omega⟩, by simp, by simp, by simp⟩
    · obtain ⟨n, h3, h4⟩ := h1 hi
      refine ⟨n, h4, ?_, fun e => absurd e hi, ?_, ?_, fun _ _ _ _ => by omega⟩
      · rintro rfl; exact hw.elim
      · rintro rfl; exact hw.elim
      · rintro c t (rfl | rfl | rfl | rfl) <;> exact hw.elim
  · have hw := (C46_8141 s k).1 ⟨_, h⟩
    obtain ⟨n, h1, h2, h3, h4⟩ := C33_exact_8141 s _ h
    dsimp only at h2 h3 h4
    refine ⟨n, h1, ?_, ?_, fun hi => by have := h2 hi; omega, ?_, ?_⟩
    · rintro rfl; exact hw.elim
    · rintro rfl; exact hw.elim
    · intro c t _ hb
      have := h3 c t hb
      split at this <;> split <;> first | omega | contradiction
    · intro _ _ hi hn
      have hcol := C33_first_offending_8141 s _ h
      by_cases hb : ∃ c t, BeginsWithMark s n c t
      · exfalso
        refine hn ⟨?_, hb⟩
        obtain ⟨m, g1, g2⟩ := hcol
        dsimp only at g2
        have hmn : m = n := by
          rcases Nat.lt_trichotomy m n with hl | hl | hl
          · exact absurd h1.viable (g1.longest n hl h1.le)
          · exact hl
          · exact absurd g1.viable (h1.longest m hl g1.le)
        subst hmn
        obtain ⟨c, t, hb⟩ := hb
        have h5 := h3 c t hb
        rcases g2 with ⟨_, g2⟩ | ⟨g2, _⟩ | ⟨g2, _⟩
        · split at h5 <;> omega
        · exact absurd g2 hi
        · rcases g2 with g2 | g2 | g2 | g2
          · exact .inr (.inl g2)
          · exact .inl g2
          · exact .inr (.inr (.inr g2))
          · exact .inr (.inr (.inl g2))
      · have := h4 hi hb; omega

/-- Which column a message has: a text of the grammar starts with the bytes before it and with no more, except in four cases, in which the column is
determined as well. -/
theorem C74_column {P : Prog} (hP : IsProgram files P) (X : Ext) (h : Heap) (mode : ParsingMode) (s : Bytes) (k : ErrKind) (hf : X.Fits s)
    (hw : mode = RFC2141Only ∧ Why2141 s k ∨ mode = RFC7643Only ∧ Why7643 s k ∨ mode = RFC8141Only ∧ Why8141 s k) :
    ∃ (n col : Nat) (h' : Heap), Furthest mode s n ∧ ColumnOf s k n col ∧
      Does (fun n => client P X n [mode] [.parse s, .error] h)
        ([[.ptr "URN" none, .err (lit (k.template ++ toString col ++ "]"))], [.err (lit (k.template ++ toString col ++ "]"))]], h') := by
  have hr : RejectsAs mode s k ∧ KnownMode mode := by
    rcases hw with ⟨rfl, hw⟩ | ⟨rfl, hw⟩ | ⟨rfl, hw⟩
    · exact ⟨(C46_2141 s k).2 hw, .inl rfl⟩
    · exact ⟨(C46_7643 s k).2 hw, .inr (.inl rfl)⟩
    · exact ⟨(C46_8141 s k).2 hw, .inr (.inr rfl)⟩
  obtain ⟨⟨c, hr⟩, hk⟩ := hr
  obtain ⟨col, h', rfl, -, h2⟩ := error_does hP X h mode s k c hf hr
  obtain ⟨n, h3, h4⟩ := column_of hk hr
  exact ⟨n, col, h', furthest_of hk h3, h4, h2⟩

/-- The second `?=` of `urn:ab:c?=?=x` is reported at 12, although the first fault is at 10. -/
example {P : Prog} (hP : IsProgram files P) (X : Ext) (h : Heap) : ∃ (n col : Nat) (h' : Heap), Furthest RFC8141Only (lit "urn:ab:c?=?=x") n ∧
    (n = 10 → col = 12) ∧
    Does (fun n => client P X n [RFC8141Only] [.parse (lit "urn:ab:c?=?=x"), .error] h)
      ([[.ptr "URN" none, .err (lit (ErrKind.qComponentStart8141.template ++ toString col ++ "]"))],
        [.err (lit (ErrKind.qComponentStart8141.template ++ toString col ++ "]"))]], h') := by
  obtain ⟨n, col, h', h1, h2, h3⟩ := C74_column hP X h RFC8141Only (lit "urn:ab:c?=?=x") .qComponentStart8141 (X.fits_of (by decide))
    (.inr (.inr ⟨rfl, (C46_8141 _ _).1 ⟨12, rejectsWith_ref.mpr (by decide)⟩⟩))
  refine ⟨n, col, h', h1, ?_, h3⟩
  rintro rfl
  exact h2.mark 61 (lit "=x") (.inr (.inr (.inl rfl))) ⟨lit "urn:ab:c", by decide⟩

/-- A space in the identifier. -/
example {P : Prog} (hP : IsProgram files P) (X : Ext) (h : Heap) : ∃ (n : Nat) (h' : Heap), Furthest RFC2141Only (lit "urn:a :") n ∧
    Does (fun n => client P X n [RFC2141Only] [.parse (lit "urn:a :"), .error] h)
      ([[.ptr "URN" none, .err (lit (ErrKind.identifier.template ++ toString n ++ "]"))], [.err (lit (ErrKind.identifier.template ++ toString n ++ "]"))]], h') := by
  obtain ⟨n, col, h', h1, h2, h3⟩ := C74_column hP X h RFC2141Only (lit "urn:a :") .identifier (X.fits_of (by decide))
    (.inl ⟨rfl, (C46_2141 _ _).1 ⟨5, rejectsWith_ref.mpr (by decide)⟩⟩)
  have hc := h2.other (by simp) (by simp) (by simp) (by simp)
  subst hc
  exact ⟨col, h', h1, h3⟩

end Urn.GoLang
