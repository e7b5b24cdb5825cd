import Verif.ErrBest
/-!
# Properties of errors

C32, C33, C37 of `properties.jsonl`.
-/
set_option autoImplicit false
namespace Urn
open Spec

/-! ## C32: error columns -/

/-- Any machine, however made and used: an error column is a position in the input, or its end. -/
theorem C32_columns (m : Machine) (hm : Reachable m) (s : Bytes) (r : Parsed) (h : m.parse s = .ok r) (e : Err) (he : r.err = some e) :
    0 ≤ e.col ∧ e.col ≤ (s.length : Int) := by
  obtain ⟨m', h1, _⟩ := parse_ref m s hm.start
  rw [h1] at h
  simp at h
  rw [← h] at he
  simp only at he
  have h2 : refFrom m.startParsingAt m.parsingMode s = (none, some e) := by
    rcases refFrom_or m.startParsingAt m.parsingMode s with ⟨u, hu⟩ | hu | ⟨e', hu⟩
    · rw [hu] at he; simp at he
    · rw [hu] at he; simp at he
    · rw [hu] at he ⊢; simp at he; rw [he]
  obtain ⟨h0, n, h3, h4, _⟩ := refFrom_err h2
  refine ⟨h0, ?_⟩
  simp only [Err.at] at h3
  split at h3 <;> omega

example : ∃ r e, (Cases.m RFC2141Only).parse (lit "urn:a:b*/c") = .ok r ∧ r.err = some e ∧ e.col = 8 ∧ 0 ≤ e.col ∧ e.col ≤ 10 := by
  obtain ⟨r, h, _, he⟩ := Cases.parses RFC2141Only (lit "urn:a:b*/c")
  have he' : r.err = some ⟨.specificString, 8⟩ := he.trans (by decide)
  exact ⟨r, _, h, he', rfl, C32_columns _ (Cases.reach _) _ r h _ he'⟩

/-- The end of the input is reached, and so is 0. -/
example : RejectsWith RFC2141Only (lit "urn:a") ⟨.identifier, 5⟩ ∧ RejectsWith RFC2141Only (lit "x") ⟨.pfx, 0⟩ :=
  ⟨rejectsWith_ref.mpr (by decide), rejectsWith_ref.mpr (by decide)⟩

/-! ## C33: error columns are the first offending position -/

/-- `w` can be extended to an accepted input. -/
def Viable (mode : ParsingMode) (w : Bytes) : Prop := ∃ t, Accepts mode (w ++ t)

/-- The longest prefix of `s` that can still be extended to an accepted input has length `n`. -/
structure LongestViable (mode : ParsingMode) (s : Bytes) (n : Nat) : Prop where
  le : n ≤ s.length
  viable : Viable mode (s.take n)
  longest : ∀ k, n < k → k ≤ s.length → ¬ Viable mode (s.take k)

theorem longest_of {mode : ParsingMode} {s : Bytes} {n : Nat} (h1 : n ≤ s.length) (h2 : Viable mode (s.take n))
    (h3 : n < s.length → ∀ x, ¬ Accepts mode (s.take (n + 1) ++ x)) : LongestViable mode s n := by
  refine ⟨h1, h2, ?_⟩
  rintro k hk hk' ⟨t, ht⟩
  have e1 : s.take k = s.take (n + 1) ++ (s.take k).drop (n + 1) := by
    have := List.take_append_drop (n + 1) (s.take k)
    rw [List.take_take, Nat.min_eq_left (by omega)] at this
    exact this.symm
  rw [e1, List.append_assoc] at ht
  exact h3 (by omega) _ ht

theorem accepts_ref {mode : ParsingMode} {s : Bytes} : Accepts mode s ↔ ∃ u, refMode mode s = (some u, none) := by
  simp only [Accepts, parsesTo_ref, res_eq]

theorem rejects_eq {mode : ParsingMode} {s : Bytes} {e : Err} : RejectsWith mode s e ↔ refMode mode s = (none, some e) := by
  rw [rejectsWith_ref]
  generalize refMode mode s = x
  obtain ⟨a, b⟩ := x
  simp

/-- RFC 2141 mode, any error but the one about the reserved word: the column is the length of the
longest prefix that can still be extended to an accepted input. -/
theorem C33_first_offending_2141 (s : Bytes) (e : Err) (h : RejectsWith RFC2141Only s e) (hk : e.kind ≠ .noUrnWithinID) :
    ∃ n : Nat, e.col = n ∧ LongestViable RFC2141Only s n := by
  rw [rejects_eq, refMode_2141] at h
  have hloc : ∀ n : Nat, e.at = (n : Int) → n < s.length → ∀ x, ¬ Accepts RFC2141Only (s.take (n + 1) ++ x) := by
    intro n hn hlt x hx
    obtain ⟨_, n', h1, _, h2⟩ := chk_loc (refNid2141_scan ⟨true, true⟩) (fun pre _ => loc_nid2141 _ pre) h
    have : n' = n := by omega
    subst this
    obtain ⟨u, hu⟩ := accepts_ref.mp hx
    rw [refMode_2141, ref2141] at hu
    rcases h2 hlt x with h2 | ⟨_, _, h2⟩ <;> rw [h2] at hu <;> simp [bad] at hu
  have hat : e.at = e.col := by
    have : e.kind ≠ .informalID8141 ∧ e.kind ≠ .scimOtherIncomplete := by
      simp only [ref2141, refPrefix] at h
      split at h
      · simp only [refNid2141] at h
        split at h
        · rw [bad_inj h]; simp
        · split at h
          · rw [bad_inj h]; simp
          · split at h
            · simp only [refNss2141] at h
              split at h
              · simp at h
              · rw [bad_inj h]; exact nssErr_ne (by decide) (by decide)
            · rw [bad_inj h]; simp
      · rw [bad_inj h]; simp
    simp [Err.at, this]
  by_cases hp : ∃ pre rest, IsUrn pre ∧ s = pre ++ 58 :: rest
  · obtain ⟨pre, rest, h1, rfl⟩ := hp
    have h' := h
    rw [ref2141, refPrefix_urn h1] at h'
    obtain ⟨n, h2, h3, t, nid, nss, h4, h5, h6, h7⟩ := via_nid2141 h' hk
    refine ⟨4 + n, h3, longest_of (by simp [h1.length]; omega) ⟨t, ?_⟩ (hloc _ (by rw [hat, h3]))⟩
    have e1 : (pre ++ 58 :: rest).take (4 + n) ++ t = pre ++ 58 :: (rest.take n ++ t) := by
      have := take_app_sub pre 58 rest n
      rw [h1.length] at this
      rw [this]; simp
    rw [e1]
    refine ⟨_, parsesTo_2141.mpr ⟨pre, nid, nss, ⟨by rw [h4]; simp, h1, h5, h6⟩, ?_, rfl⟩⟩
    rw [← clash_eq h1]; exact h7
  · have hb := refPrefix_bad (s := s) (fun pre rest h1 h2 => hp ⟨pre, rest, h1, h2⟩) (refNid2141 ⟨true, true⟩)
    have h' := h
    rw [ref2141, hb] at h'
    have hcol := bad_inj h'
    have hl := lit_len urnPat s 0
    rw [Nat.zero_add] at hl
    have happ := munch_append (litStep urnPat) 0 s
    have hst := steps_munch (stp := litStep urnPat) 0 s
    generalize munch (litStep urnPat) 0 s = y at *
    obtain ⟨q, w, r⟩ := y
    simp only at *
    subst happ hcol
    refine ⟨q, rfl, longest_of (by simp; omega) ?_ (hloc q hat)⟩
    rw [hl, List.take_left]
    obtain ⟨p, _, h1⟩ := via_urn hst
    have h2 : ∃ v, w ++ v = p ++ [58] ∧ IsUrn p := by
      rcases h1 with ⟨_, v, h1, h2⟩ | ⟨_, h1, h2⟩
      · exact ⟨v, h1, h2⟩
      · exact ⟨[], by simpa using h1, h2⟩
    obtain ⟨v, h3, h4⟩ := h2
    refine ⟨v ++ lit "abcd:x", ?_⟩
    rw [← List.append_assoc, h3]
    refine ⟨_, parsesTo_2141.mpr ⟨p, lit "abcd", lit "x", ⟨by simp [lit], h4, ?_, ?_⟩, ?_, rfl⟩⟩
    · exact nid2_iff.mp ⟨.chars 4, rfl, rfl⟩
    · exact nss2141_iff.mpr ⟨.plain, rfl, rfl⟩
    · rw [show p ++ [58] ++ lit "abcd:x" = p ++ 58 :: lit "abcd:x" by simp, ← clash_eq h4]; rfl

example : ∃ n : Nat, (8 : Int) = n ∧ LongestViable RFC2141Only (lit "urn:a:b*/c") n :=
  C33_first_offending_2141 _ ⟨.specificString, 8⟩ (rejects_of (by decide)) (by decide)

/-- The error about the reserved word: its column is always 7, there is a colon there, the
identifier starts with `u` or `U`, and the input up to that colon cannot be extended. -/
theorem C33_reserved_2141 (s : Bytes) (e : Err) (h : RejectsWith RFC2141Only s e) (hk : e.kind = .noUrnWithinID) :
    e.col = 7 ∧ s[7]? = some 58 ∧ (s[4]? = some 117 ∨ s[4]? = some 85) ∧ ¬ Viable RFC2141Only (s.take 8) := by
  rw [rejects_eq, refMode_2141] at h
  have hl : e.col = 7 ∧ lookahead s = true := by
    simp only [ref2141] at h
    rcases refPrefix_cases s with ⟨pre, rest, h1, rfl⟩ | ⟨n, _, _, hb⟩
    · rw [refPrefix_urn h1, refNid2141_scan] at h
      split at h
      · rename_i hc
        rw [← clash_eq h1]
        rw [bad_inj h]; exact ⟨rfl, hc.2⟩
      · exfalso
        simp only [scanNid2141, refNid2141] at h
        split at h
        · rename_i hf; simp at hf
        · split at h
          · rw [bad_inj h] at hk; simp at hk
          · split at h
            · simp only [refNss2141] at h
              split at h
              · simp at h
              · rw [bad_inj h] at hk
                generalize (munch (nssStep isSss isSss) Nss.start _).1 = q at hk
                cases q <;> simp [nssErr] at hk
            · rw [bad_inj h] at hk; simp at hk
    · rw [hb] at h; rw [bad_inj h] at hk; simp at hk
  obtain ⟨h1, h2⟩ := hl
  have h3 := lookahead_iff.mp h2
  refine ⟨h1, h3.2, h3.1, ?_⟩
  rintro ⟨t, u, hu⟩
  obtain ⟨_, _, _, _, h4, _⟩ := parsesTo_2141.mp hu
  have h5 : lookahead (s.take 8 ++ t) = lookahead s := by
    have hlen : 7 < s.length := lt_of_get h3.2
    simp only [lookahead]
    rw [List.getElem?_append_left (by simp; omega), List.getElem?_append_left (by simp; omega), List.getElem?_take, List.getElem?_take]
    simp
  rw [h5, h2] at h4; simp at h4

example : ¬ Viable RFC2141Only (lit "urn:uci:") :=
  (C33_reserved_2141 (lit "urn:uci:x") ⟨.noUrnWithinID, 7⟩ (rejects_of (by decide)) rfl).2.2.2

/-- RFC 7643 mode: the column is the length of the longest prefix that can still be extended to an
accepted input; if the other part is missing or incomplete, the whole input can be extended and
the column is that of its last byte. -/
theorem C33_first_offending_7643 (s : Bytes) (e : Err) (h : RejectsWith RFC7643Only s e) :
    (e.kind ≠ .scimOtherIncomplete → ∃ n : Nat, e.col = n ∧ LongestViable RFC7643Only s n) ∧
    (e.kind = .scimOtherIncomplete → e.col = (s.length : Int) - 1 ∧ LongestViable RFC7643Only s s.length) := by
  rw [rejects_eq, refMode_7643] at h
  have hv : ∀ pre, IsUrn pre → Via (refScimNs false pre) [] := fun pre _ => (best_scimNs false pre).2 0
  obtain ⟨n, h1, ⟨t, u, h2⟩, h3, h4⟩ := best_prefix (k := refScimNs false) (fun pre _ => (best_scimNs false pre).1) hv s e h
  have hL : LongestViable RFC7643Only s n := longest_of h1 ⟨t, accepts_ref.mpr ⟨u, h2⟩⟩ (fun hn x hx => by
    obtain ⟨u', hu'⟩ := accepts_ref.mp hx
    have := h3 hn x
    rw [refMode_7643, refScim] at hu'
    simp only at this
    rw [hu'] at this; simp at this)
  have hkinds := scim_kinds h
  have hat : e.at = (n : Int) := by
    rcases h4 with h4 | ⟨h4, _⟩
    · simpa using h4
    · exact absurd h4 hkinds.1
  refine ⟨fun hk => ⟨n, ?_, hL⟩, fun hk => ?_⟩
  · simp only [Err.at] at hat
    rw [if_neg] at hat
    · exact hat
    · rintro (h | h)
      · exact hkinds.2.1 h
      · exact hk h
  · have := hkinds.2.2 hk
    simp only [Err.at, hk, or_true, if_true] at hat
    have hn : n = s.length := by omega
    exact ⟨by simpa using this, hn ▸ hL⟩

example : LongestViable RFC7643Only (lit "urn:ietf:params:scim:api:x:") 27 ∧
    ∃ n : Nat, (14 : Int) = n ∧ LongestViable RFC7643Only (lit "urn:ietf:param:") n :=
  ⟨((C33_first_offending_7643 _ ⟨.scimOtherIncomplete, 26⟩ (rejects_of (by decide))).2 rfl).2,
   (C33_first_offending_7643 _ ⟨.scimNamespace, 14⟩ (rejects_of (by decide))).1 (by decide)⟩

/-- RFC 8141 mode: the longest prefix that can still be extended to an accepted input ends at the
column; for an ill-formed informal identifier one byte after it; and for a component that starts
with a question mark one or two bytes before it. -/
theorem C33_first_offending_8141 (s : Bytes) (e : Err) (h : RejectsWith RFC8141Only s e) :
    ∃ n : Nat, LongestViable RFC8141Only s n ∧
      ((e.kind ≠ .informalID8141 ∧ e.col = (n : Int)) ∨
       (e.kind = .informalID8141 ∧ e.col + 1 = (n : Int)) ∨
       ((e.kind = .malformedRComp8141 ∨ e.kind = .rComponentStart8141 ∨ e.kind = .malformedQComp8141 ∨ e.kind = .qComponentStart8141) ∧
        s[n]? = some 63 ∧ (e.col = ((n + 1 : Nat) : Int) ∨ e.col = ((n + 2 : Nat) : Int)))) := by
  rw [rejects_eq, refMode_8141] at h
  have e8 : ∀ s, ref8141 ⟨true, false⟩ s = refPrefix s (scanNid8141 true) := fun s => rfl
  have hv : ∀ pre, IsUrn pre → Via (scanNid8141 true pre) [] := fun pre _ => via_nid8141 (q := .start) rfl
  obtain ⟨n, h1, ⟨t, u, h2⟩, h3, h4⟩ := best_prefix (fun pre _ => best_nid8141 true pre) hv s e h
  have hL : LongestViable RFC8141Only s n := longest_of h1 ⟨t, accepts_ref.mpr ⟨u, h2⟩⟩ (fun hn x hx => by
    obtain ⟨u', hu'⟩ := accepts_ref.mp hx
    have := h3 hn x
    rw [refMode_8141, e8] at hu'
    simp only at this
    rw [hu'] at this; simp at this)
  have hno := kinds_8141 h
  refine ⟨n, hL, ?_⟩
  simp only [Nat.zero_add] at h4
  by_cases hi : e.kind = .informalID8141
  · right; left
    refine ⟨hi, ?_⟩
    rcases h4 with h4 | ⟨h4, _⟩
    · simpa [Err.at, hi] using h4
    · simp [CompKind, hi] at h4
  · have hat : e.at = e.col := by simp [Err.at, hi, hno]
    rw [hat] at h4
    rcases h4 with h4 | h4
    · exact Or.inl ⟨hi, h4⟩
    · exact Or.inr (Or.inr h4)

/-- Instances of all the cases. -/
example : RejectsWith RFC2141Only (lit "urn:a:b*/c") ⟨.specificString, 8⟩ ∧ RejectsWith RFC2141Only (lit "urn:uci:x") ⟨.noUrnWithinID, 7⟩ ∧
    RejectsWith RFC7643Only (lit "urn:ietf:params:scim:api:x:") ⟨.scimOtherIncomplete, 26⟩ ∧
    RejectsWith RFC7643Only (lit "urn:ietf:param:") ⟨.scimNamespace, 14⟩ ∧
    RejectsWith RFC8141Only (lit "urn:ab:c?+%zz%g") ⟨.hex, 15⟩ ∧
    RejectsWith RFC8141Only (lit "urn:urn-a:b") ⟨.informalID8141, 7⟩ ∧
    RejectsWith RFC8141Only (lit "urn:ab:c?+?x") ⟨.malformedRComp8141, 11⟩ ∧
    RejectsWith RFC8141Only (lit "urn:ab:c?=?=x") ⟨.qComponentStart8141, 12⟩ := by
  refine ⟨?_, ?_, ?_, ?_, ?_, ?_, ?_, ?_⟩ <;> exact rejectsWith_ref.mpr (by decide)

/-! ## C37: errors depend only on the bytes read so far -/

/-- Let `i` be the position of the failing byte: the column, or one more for an ill-formed informal
identifier.  If two inputs agree up to and including that byte, then the second one is rejected with
the same error, unless the look-ahead of RFC 2141 mode finds the reserved word. -/
theorem C37_local (mode : ParsingMode) (hm : KnownMode mode) (s s' : Bytes) (e : Err) (h : RejectsWith mode s e)
    (hk : e.kind ≠ .scimOtherIncomplete) (i : Nat) (hi : (i : Int) = if e.kind = .informalID8141 then e.col + 1 else e.col)
    (hlt : i < s.length) (hs : s'.take (i + 1) = s.take (i + 1)) :
    RejectsWith mode s' e ∨ (mode = RFC2141Only ∧ i < 7 ∧ RejectsWith mode s' ⟨.noUrnWithinID, 7⟩) := by
  rw [rejects_eq] at h ⊢
  obtain ⟨_, n, h1, h2, h3⟩ := refFrom_err h
  have hat : e.at = (i : Int) := by
    rw [hi]; simp [Err.at, hk]
  have : n = i := by omega
  subst this
  have e1 : s' = s.take (n + 1) ++ s'.drop (n + 1) := by rw [← hs, List.take_append_drop]
  have h4 := h3 hlt (s'.drop (n + 1))
  rw [← e1] at h4
  rcases h4 with h4 | ⟨⟨h5, h6⟩, h7, h8⟩
  · exact Or.inl h4
  · right
    refine ⟨?_, h7, rejects_eq.mpr h8⟩
    rcases hm with h | h | h
    · exact h
    · exact absurd (by rw [h]; rfl) h5
    · exact absurd h h6

example (t : Bytes) : RejectsWith RFC2141Only (lit "urn:a:b*/" ++ t) ⟨.specificString, 8⟩ := by
  rcases C37_local _ Cases.k2141 (lit "urn:a:b*/c") (lit "urn:a:b*/" ++ t) ⟨.specificString, 8⟩ (rejects_of (by decide)) (by decide) 8
    (by decide) (by decide) (by simp [lit]) with h | h
  · exact h
  · exact absurd h.2.1 (by decide)

/-- The same for any machine, whatever its history. -/
theorem C37_local_machine (m : Machine) (hm : Reachable m) (s s' : Bytes) (r r' : Parsed) (h : m.parse s = .ok r) (h' : m.parse s' = .ok r')
    (e : Err) (he : r.err = some e)
    (hk : e.kind ≠ .scimOtherIncomplete) (i : Nat) (hi : (i : Int) = if e.kind = .informalID8141 then e.col + 1 else e.col)
    (hlt : i < s.length) (hs : s'.take (i + 1) = s.take (i + 1)) :
    r'.urn = none ∧ (r'.err = some e ∨ (i < 7 ∧ r'.err = some ⟨.noUrnWithinID, 7⟩)) := by
  obtain ⟨_, h1, _⟩ := parse_ref m s hm.start
  obtain ⟨_, h2, _⟩ := parse_ref m s' hm.start
  rw [h1] at h; rw [h2] at h'
  simp at h h'
  rw [← h] at he; rw [← h']
  simp only at he ⊢
  have h3 : refFrom m.startParsingAt m.parsingMode s = (none, some e) := by
    rcases refFrom_or m.startParsingAt m.parsingMode s with ⟨u, hu⟩ | hu | ⟨e', hu⟩
    · rw [hu] at he; simp at he
    · rw [hu] at he; simp at he
    · rw [hu] at he ⊢; simp at he; rw [he]
  obtain ⟨_, n, h4, h5, h6⟩ := refFrom_err h3
  have hat : e.at = (i : Int) := by
    rw [hi]; simp [Err.at, hk]
  have : n = i := by omega
  subst this
  have e1 : s' = s.take (n + 1) ++ s'.drop (n + 1) := by rw [← hs, List.take_append_drop]
  have h7 := h6 hlt (s'.drop (n + 1))
  rw [← e1] at h7
  rcases h7 with h7 | ⟨_, h8, h9⟩
  · rw [h7]; exact ⟨rfl, Or.inl rfl⟩
  · rw [h9]; exact ⟨rfl, Or.inr ⟨h8, rfl⟩⟩

example (t : Bytes) (r' : Parsed) (h' : (Cases.m RFC2141Only).parse (lit "urn:a:b*/" ++ t) = .ok r') :
    r'.urn = none ∧ r'.err = some ⟨.specificString, 8⟩ := by
  obtain ⟨r, h, _, he⟩ := Cases.parses RFC2141Only (lit "urn:a:b*/c")
  have he' : r.err = some ⟨.specificString, 8⟩ := he.trans (by decide)
  obtain ⟨h1, h2⟩ := C37_local_machine _ (Cases.reach _) _ _ r r' h h' _ he' (by decide) 8 (by decide) (by decide) (by simp [lit])
  exact ⟨h1, h2.resolve_right fun h => absurd h.1 (by decide)⟩

/-- The exception is real: `urn:u*` fails at column 5, and so does every extension except those with
a colon at position 7. -/
example : RejectsWith RFC2141Only (lit "urn:u*a") ⟨.identifier, 5⟩ ∧ RejectsWith RFC2141Only (lit "urn:u*a:") ⟨.noUrnWithinID, 7⟩ ∧
    RejectsWith RFC2141Only (lit "urn:u*b") ⟨.identifier, 5⟩ :=
  ⟨rejectsWith_ref.mpr (by decide), rejectsWith_ref.mpr (by decide), rejectsWith_ref.mpr (by decide)⟩

end Urn
