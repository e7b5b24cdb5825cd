import Verif.CostAux
import Verif.PropsParse
/-!
# C72: the work of `Parse`

`Machine.parseWork` (Cost.lean) counts the rounds of the loop and the bytes that are copied.
-/
set_option autoImplicit false
namespace Urn
open Spec Tables

/-- In the modes of RFC 2141 and RFC 7643 the work is linear, for all inputs, accepted or not. -/
theorem C72_linear (m : Machine) (mode : ParsingMode) (hm : mode = RFC2141Only ∨ mode = RFC7643Only) (s : Bytes) :
    (m.withParsingMode mode).parseWork s ≤ 22 * s.length + 110 := by
  rcases hm with rfl | rfl
  · have e : (m.withParsingMode RFC2141Only).startParsingAt = 1 := rfl
    have h := parseWork_le (m := m.withParsingMode RFC2141Only) (by rw [e]; exact Or.inr (Or.inl rfl)) s
    rw [e] at h
    simp only [show rank 1 = 6 from rfl, show in8141 1 = false from rfl, Bool.false_eq_true, if_false] at h
    omega
  · have e : (m.withParsingMode RFC7643Only).startParsingAt = 44 := rfl
    have h := parseWork_le (m := m.withParsingMode RFC7643Only) (by rw [e]; exact Or.inr (Or.inr (Or.inl rfl))) s
    rw [e] at h
    simp only [show rank 44 = 9 from rfl, show in8141 44 = false from rfl, Bool.false_eq_true, if_false] at h
    omega

example : ((({} : Machine).withParsingMode RFC2141Only).parseWork Cases.s2141) ≤ 418 := C72_linear _ _ (Or.inl rfl) _

/-- The default machine. -/
theorem C72_default (m : Machine) (h : newMachine [] = .ok m) (s : Bytes) : m.parseWork s ≤ 22 * s.length + 110 := by
  have e : newMachine [] = .ok (({ parsingModeSet := false } : Machine).withParsingMode RFC2141Only) := rfl
  rw [e] at h
  cases h
  exact C72_linear _ _ (Or.inl rfl) s

example : ∃ m, newMachine [] = .ok m ∧ m.parseWork Cases.s2141 ≤ 418 := ⟨_, rfl, C72_default _ rfl _⟩

/-- On any machine the work is at most quadratic: linear in the product of the length of the input
and the number of its question marks. -/
theorem C72_bound (m : Machine) (h : Reachable m) (s : Bytes) :
    m.parseWork s ≤ (11 + s.count 63) * (2 * s.length + 10) := by
  have h1 := parseWork_le h.start s
  have h2 : rank m.startParsingAt ≤ 9 := by rcases h.start with e | e | e | e <;> rw [e] <;> decide
  refine Nat.le_trans h1 (Nat.mul_le_mul_right _ ?_)
  split <;> omega

example : (Cases.m RFC8141Only).parseWork Cases.s8141 ≤ (11 + 2) * 56 := C72_bound _ (Cases.reach _) _

/-- So it is linear on texts without question marks. -/
theorem C72_bound_linear (m : Machine) (h : Reachable m) (s : Bytes) (hq : 63 ∉ s) : m.parseWork s ≤ 22 * s.length + 110 := by
  have := C72_bound m h s
  rw [List.count_eq_zero.mpr hq] at this
  omega

example : (Cases.m RFC8141Only).parseWork (lit "urn:ab:c#f") ≤ 330 := C72_bound_linear _ (Cases.reach _) _ (by decide)

/-- In the mode of RFC 8141 the work is not linear: `urn:ab:c?+a?` followed by `n` question marks is
a URN, and to accept it at least `n * n / 2` units of work are done. -/
theorem C72_quadratic (m : Machine) (n : Nat) :
    Accepts RFC8141Only (lit "urn:ab:c?+a?" ++ List.replicate n 63) ∧
    (lit "urn:ab:c?+a?" ++ List.replicate n 63).length = n + 12 ∧
    n * n ≤ 2 * (m.withParsingMode RFC8141Only).parseWork (lit "urn:ab:c?+a?" ++ List.replicate n 63) := by
  refine ⟨?_, markText_length n, ?_⟩
  · rw [C12_exact]
    refine ⟨lit "urn", lit "ab", lit "c", some (lit "a?" ++ List.replicate n 63), none, none, ?_, by unfold IsUrn; decide, ?_, ?_, ?_, by simp, by simp⟩
    · simp [opt, lit]
    · refine ⟨by decide, by decide, by decide, by decide, by decide, ?_⟩
      rintro ⟨p, x, t, h, _⟩
      have : (45 : UInt8) ∈ lit "ab" := by rw [h]; simp
      exact absurd this (by decide)
    · exact .char (by decide) .nil
    · rintro w h
      cases h
      have hin : ∀ c ∈ lit "a?" ++ List.replicate n 63, c = 97 ∨ c = 63 := by
        intro c hc
        rw [List.mem_append] at hc
        rcases hc with hc | hc
        · simpa [lit] using hc
        · exact Or.inr (List.eq_of_mem_replicate hc)
      refine ⟨.char (by decide) (.char (by decide) ?_), ?_, ?_⟩
      · have hseq : ∀ k, PctSeq isPcharSlashQ (List.replicate k 63) := by
          intro k
          induction k with
          | zero => exact .nil
          | succ k ih => exact .char (by decide) ih
        exact hseq n
      · intro a b h
        have := hin 43 (by rw [h]; simp)
        simp at this
      · intro a b h
        have := hin 61 (by rw [h]; simp)
        simp at this
  · have h := markText_work (m0 := m.withParsingMode RFC8141Only) n (n + 32) rfl
    have e : fuelFor (markText n).length = 2 * n + (n + 32) + 24 := by rw [markText_length]; simp [fuelFor]; omega
    have e2 : entry ((m.withParsingMode RFC8141Only).init (markText n)) = cfg (m.withParsingMode RFC8141Only) (markText n) 83 0 0 {} := by
      have h1 : (0 : Int) ≠ ((markText n).length : Nat) := by rw [markText_length]; omega
      have h2 : 0 ≠ (markText n).length := by rw [markText_length]; omega
      simp only [entry, Machine.init, cfg, mk, h1, h2, if_false]
      rfl
    show n * n ≤ 2 * runWork (fuelFor (markText n).length) (entry ((m.withParsingMode RFC8141Only).init (markText n)))
    rw [e, e2]
    exact h

/-- No linear function bounds the work in the mode of RFC 8141. -/
theorem C72_not_linear (a b : Nat) : ∃ m s, newMachine [withParsingMode RFC8141Only] = .ok m ∧ Accepts RFC8141Only s ∧
    a * s.length + b < m.parseWork s := by
  obtain ⟨n, hn⟩ : ∃ n, n = 2 * a + 2 * b + 25 := ⟨_, rfl⟩
  obtain ⟨h1, h2, h3⟩ := C72_quadratic { parsingModeSet := false } n
  refine ⟨_, _, newMachine_mode _, h1, ?_⟩
  rw [h2]
  have h4 : n * n = 2 * (a * n) + 2 * (b * n) + 25 * n := by
    conv => lhs; lhs; rw [hn]
    rw [Nat.add_mul, Nat.add_mul, Nat.mul_assoc, Nat.mul_assoc]
  have h5 : b ≤ b * n := Nat.le_mul_of_pos_right _ (by omega)
  have h6 : a * (n + 12) = a * n + a * 12 := Nat.mul_add _ _ _
  show a * (n + 12) + b < (({ parsingModeSet := false } : Machine).withParsingMode RFC8141Only).parseWork _
  omega

/-- The smallest texts of the family: fourteen bytes, and a copy of one, two and three bytes. -/
example : (lit "urn:ab:c?+a?" ++ List.replicate 2 63) = lit "urn:ab:c?+a???" ∧
    ((({ parsingModeSet := false } : Machine).withParsingMode RFC8141Only).parseWork (lit "urn:ab:c?+a???")) = 46 := by
  decide +kernel

example : ∃ m, newMachine [] = .ok m ∧ Reachable m := ⟨_, rfl, reachable_new (opts := []) rfl⟩

end Urn
