import Verif.ErrExact
/-!
# More about C33: exact columns in RFC 8141 mode
-/
set_option autoImplicit false
namespace Urn
open Spec

/-- In `s` an r-component (`c` is `+`) or a q-component (`c` is `=`) that nothing but `urn:nid:nss` precedes begins with a question mark, which is
at position `n`; `t` is what follows it. -/
def BeginsWithMark (s : Bytes) (n : Nat) (c : UInt8) (t : Bytes) : Prop :=
  ∃ a, s = a ++ 63 :: c :: 63 :: t ∧ (c = 43 ∨ c = 61) ∧ 63 ∉ a ∧ 35 ∉ a ∧ n = a.length + 2

theorem plain_stop {pre nid nss : Bytes} (h1 : IsUrn pre) (h2 : Nid8141 nid) (h3 : Nss8141 nss) :
    63 ∉ pre ++ 58 :: nid ++ 58 :: nss ∧ 35 ∉ pre ++ 58 :: nid ++ 58 :: nss := by
  have hp : ∀ c, c ∈ pre → isAlpha c = true := by
    obtain ⟨a, b, c, rfl, ha, hb, hc⟩ := isUrn_iff.1 h1
    have key : ∀ x : UInt8, (lower x = 117 ∨ lower x = 114 ∨ lower x = 110) → isAlpha x = true := forall_byte (by decide +kernel)
    intro x hx
    simp only [List.mem_cons, List.not_mem_nil, or_false] at hx
    rcases hx with rfl | rfl | rfl
    · exact key _ (Or.inl ha)
    · exact key _ (Or.inr (Or.inl hb))
    · exact key _ (Or.inr (Or.inr hc))
  have hn := h2.chars
  have hs := PctSeq_mem (nss8141_seq h3)
  constructor <;> intro h <;> simp only [List.mem_append, List.mem_cons] at h <;> rcases h with (h | h | h) | h | h
  · exact absurd (hp _ h) (by decide)
  · exact absurd h (by decide)
  · exact absurd (hn _ h) (by decide)
  · exact absurd h (by decide)
  · exact absurd (hs _ h) (by decide)
  · exact absurd (hp _ h) (by decide)
  · exact absurd h (by decide)
  · exact absurd (hn _ h) (by decide)
  · exact absurd h (by decide)
  · exact absurd (hs _ h) (by decide)

/-- RFC 8141 mode: the column is the end of the longest prefix that can still be extended to an accepted input, or one less for an ill-formed
informal identifier.  If a component begins with a question mark there, it is one more, or two more if `?+` follows `?+` or `?=` follows `?=`. -/
theorem C33_exact_8141 (s : Bytes) (e : Err) (h : RejectsWith RFC8141Only s e) :
    ∃ n : Nat, LongestViable RFC8141Only s n ∧
      (e.kind = .informalID8141 → e.col + 1 = (n : Int)) ∧
      (∀ c t, BeginsWithMark s n c t → e.col = if t.head? = some c then (n : Int) + 2 else (n : Int) + 1) ∧
      (e.kind ≠ .informalID8141 → (¬ ∃ c t, BeginsWithMark s n c t) → e.col = (n : Int)) := by
  obtain ⟨n, hL, hn⟩ := C33_first_offending_8141 s e h
  have h8 : ref8141 ⟨true, false⟩ s = (none, some e) := by rw [rejects_eq, refMode_8141] at h; exact h
  refine ⟨n, hL, ?_, ?_, ?_⟩
  · intro hi
    rcases hn with ⟨h1, _⟩ | ⟨_, h2⟩ | ⟨h1, _⟩
    · exact absurd hi h1
    · exact h2
    · rw [hi] at h1; simp at h1
  · rintro c t ⟨a, rfl, hc, ha1, ha2, rfl⟩
    obtain ⟨x, hx⟩ := hL.viable
    have ht : (a ++ 63 :: c :: 63 :: t).take (a.length + 2) = a ++ [63, c] := by
      rw [show a ++ 63 :: c :: 63 :: t = (a ++ [63, c]) ++ 63 :: t by simp, List.take_left' (by simp)]
    rw [ht] at hx
    obtain ⟨pre, nid, nss, r, q, f, hu⟩ := (C12_exact _).1 hx
    have ha : a = pre ++ 58 :: nid ++ 58 :: nss := by
      refine stop_unique ⟨ha1, ha2⟩ (plain_stop hu.hpre hu.hnid hu.hnss) (x := 63 :: c :: x) (Or.inr (Or.inl rfl)) (opts_head r q f) ?_
      have := hu.eq
      simpa using this
    subst ha
    obtain ⟨o, ho⟩ := ref8141_comp hu.hpre hu.hnid hu.hnss
    rw [ho] at h8
    obtain ⟨g1, g2⟩ := comp_qm hc h8
    split
    · next hh => rw [g1 hh]; omega
    · next hh => rw [g2 hh]; omega
  · intro hi hq
    have key : ∀ a pre nid nss c w, IsUrn pre → Nid8141 nid → Nss8141 nss → a = pre ++ 58 :: nid ++ 58 :: nss → (c = 43 ∨ c = 61) → s = a ++ 63 :: c :: w →
        e.col = (n : Int) := by
      intro a pre nid nss c w h1 h2 h3 ha hc hs
      have hst := plain_stop h1 h2 h3
      obtain ⟨o, ho⟩ := ref8141_comp h1 h2 h3
      rw [← ha] at ho hst
      have h8' := h8
      rw [hs, ho] at h8'
      by_cases hw : w.head? = some 63
      · exfalso
        cases w with
        | nil => simp at hw
        | cons d t =>
          simp only [List.head?_cons, Option.some.injEq] at hw
          subst hw
          have hne : ¬ n = a.length + 2 := fun hn' => hq ⟨c, t, a, hs, hc, hst.1, hst.2, hn'⟩
          have hlv : Viable RFC8141Only (s.take (a.length + 2)) ∧ ¬ Viable RFC8141Only (s.take (a.length + 3)) := by
            have t1 : s.take (a.length + 2) = a ++ [63, c] := by
              rw [hs, show a ++ 63 :: c :: 63 :: t = (a ++ [63, c]) ++ 63 :: t by simp, List.take_left' (by simp)]
            have t2 : s.take (a.length + 3) = a ++ [63, c, 63] := by
              rw [hs, show a ++ 63 :: c :: 63 :: t = (a ++ [63, c, 63]) ++ t by simp, List.take_left' (by simp)]
            rw [t1, t2]
            constructor
            · refine ⟨lit "x", accepts_ref.2 ?_⟩
              rw [refMode_8141, show a ++ [63, c] ++ lit "x" = a ++ 63 :: c :: lit "x" by simp, ho]
              rcases hc with rfl | rfl <;> exact ⟨_, rfl⟩
            · rintro ⟨y, hy⟩
              obtain ⟨u, hy⟩ := accepts_ref.1 hy
              rw [refMode_8141, show a ++ [63, c, 63] ++ y = a ++ 63 :: c :: 63 :: y by simp, ho] at hy
              rcases hc with rfl | rfl
              · obtain ⟨e', he'⟩ := refRQ_bad y (a.length + 1 + 2)
                have : refRQComp true o (43 :: 63 :: y) (a.length + 1) = refRQ y (a.length + 1 + 2) := rfl
                rw [this, he'] at hy; simp at hy
              · obtain ⟨e', he'⟩ := refQQ_bad y (a.length + 1 + 2)
                have : refRQComp true o (61 :: 63 :: y) (a.length + 1) = refQQ y (a.length + 1 + 2) := rfl
                rw [this, he'] at hy; simp at hy
          have hlen : a.length + 3 ≤ s.length := by rw [hs]; simp
          rcases Nat.lt_trichotomy n (a.length + 2) with hl | hl | hl
          · exact hL.longest _ hl (by omega) hlv.1
          · exact hne hl
          · obtain ⟨y, hy⟩ := hL.viable
            refine hlv.2 ⟨(s.take n).drop (a.length + 3) ++ y, ?_⟩
            have : s.take n = s.take (a.length + 3) ++ (s.take n).drop (a.length + 3) := by
              have := List.take_append_drop (a.length + 3) (s.take n)
              rw [List.take_take, Nat.min_eq_left (by omega)] at this
              exact this.symm
            rw [← List.append_assoc, ← this]
            exact hy
      · obtain ⟨m, g1, g2, x, u, g3⟩ := at_RQComp h8' hw
        have hat : e.at = e.col := by simp [Err.at, hi, kinds_8141 h8]
        rw [hat] at g2
        have hv : Viable RFC8141Only (s.take (a.length + 1 + m)) := by
          refine ⟨x, accepts_ref.2 ⟨u, ?_⟩⟩
          rw [hs, take_app_sub, refMode_8141, List.append_assoc, List.cons_append, ho]
          exact g3
        have hle : a.length + 1 + m ≤ n := by
          apply Nat.le_of_not_lt
          intro hlt
          refine hL.longest _ hlt ?_ hv
          rw [hs]; simp at g1 ⊢; omega
        rcases hn with ⟨_, h2⟩ | ⟨h2, _⟩ | ⟨_, _, h2⟩
        · exact h2
        · exact absurd h2 hi
        · omega
    have hR : ∀ w, AfterR s w → e.col = (n : Int) := by
      rintro w ⟨b, pre, nid, nss, hb, hs⟩
      exact key b pre nid nss 43 w hb.hpre hb.hnid hb.hnss (by simpa [opt] using hb.eq) (Or.inl rfl) (by rw [hs]; simp [lit])
    have hQ : ∀ w, AfterQ s w → e.col = (n : Int) := by
      intro w hw
      rcases afterQ_iff.1 hw with ⟨nss, h3, pre, nid, h1, h2, hs⟩ | ⟨_, _, _, _, _, _, hw⟩
      · exact key _ pre nid nss 61 w h1 h2 h3 rfl (Or.inr rfl) (by rw [hs]; simp)
      · exact hR _ hw
    rcases hn with ⟨_, h2⟩ | ⟨h2, _⟩ | ⟨h2, _⟩
    · exact h2
    · exact absurd h2 hi
    · have hwhy := (C46_8141 s e.kind).1 ⟨e.col, h⟩
      rcases h2 with h2 | h2 | h2 | h2 <;> rw [h2] at hwhy
      · obtain ⟨w, hw, _⟩ := hwhy; exact hR w hw
      · obtain ⟨w, hw, _⟩ := hwhy; exact hR w hw
      · obtain ⟨w, hw, _⟩ := hwhy; exact hQ w hw
      · obtain ⟨w, hw, _⟩ := hwhy; exact hQ w hw

/-- The three columns of a component that begins, or could begin, with a question mark. -/
example : RejectsWith RFC8141Only (lit "urn:ab:c?+?x") ⟨.malformedRComp8141, 11⟩ ∧ BeginsWithMark (lit "urn:ab:c?+?x") 10 43 (lit "x") ∧
    RejectsWith RFC8141Only (lit "urn:ab:c?=?=x") ⟨.qComponentStart8141, 12⟩ ∧ BeginsWithMark (lit "urn:ab:c?=?=x") 10 61 (lit "=x") ∧
    RejectsWith RFC8141Only (lit "urn:ab:c?+/") ⟨.malformedRComp8141, 10⟩ :=
  ⟨rejectsWith_ref.mpr (by decide), ⟨lit "urn:ab:c", by decide⟩, rejectsWith_ref.mpr (by decide), ⟨lit "urn:ab:c", by decide⟩, rejectsWith_ref.mpr (by decide)⟩

/-- So the first ten bytes of `urn:ab:c?+/` can be extended to an accepted text. -/
example : LongestViable RFC8141Only (lit "urn:ab:c?+/") 10 := by
  obtain ⟨n, h1, -, -, h4⟩ := C33_exact_8141 _ ⟨.malformedRComp8141, 10⟩ (rejects_of (s := lit "urn:ab:c?+/") (by decide))
  have hq : ¬ ∃ c t, BeginsWithMark (lit "urn:ab:c?+/") n c t := by
    rintro ⟨c, t, a, e, hc, ha1, ha2, rfl⟩
    have ha : a = lit "urn:ab:c" := stop_unique ⟨ha1, ha2⟩ (w := lit "urn:ab:c") (x := 63 :: c :: 63 :: t) (y := lit "?+/") (by decide) (Or.inr (Or.inl rfl)) (by decide) e.symm
    subst ha
    simp [lit] at e
  have := h4 (by simp) hq
  have hn : n = 10 := by simp only at this; omega
  exact hn ▸ h1

end Urn
