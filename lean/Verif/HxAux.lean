import Verif.PropsEqual
/-!
# The effect of the escape flag of the mode on the outcome
-/
set_option autoImplicit false
namespace Urn
open Spec

/-- The error of a malformed escape is replaced by the general one. -/
def unhex (k : ErrKind) (e : Err) : Err := if e.kind = .hex then ⟨k, e.col⟩ else e

theorem refNss2141_unhex (pre nid nss : Bytes) (b : Nat) :
    refNss2141 false pre nid nss b = ((refNss2141 true pre nid nss b).1, (refNss2141 true pre nid nss b).2.map (unhex .specificString)) := by
  simp only [refNss2141]
  split
  · rfl
  · generalize (munch (nssStep isSss isSss) .start nss).1 = y
    cases y <;> rfl

theorem ref2141_unhex (chk : Bool) (s : Bytes) :
    ref2141 ⟨false, chk⟩ s = ((ref2141 ⟨true, chk⟩ s).1, (ref2141 ⟨true, chk⟩ s).2.map (unhex .specificString)) := by
  simp only [ref2141, refPrefix]
  split
  · simp only [refNid2141]
    split
    · rfl
    · split
      · rfl
      · split
        · exact refNss2141_unhex _ _ _ _
        · rfl
  · rfl

/-- What is reported at column `c` in place of a malformed escape: nothing in a fragment, the error of a
component after a question mark, and the error of the specific string before. -/
def Instead (s : Bytes) (c : Nat) (x : Res) : Prop :=
  if 35 ∈ s.take c then x = (none, none)
  else if 63 ∈ s.take c then x = bad .malformedRComp8141 c ∨ x = bad .malformedQComp8141 c
  else x = bad .specificString8141 c

/-- `x` is `y`, except that the malformed escape error of `y` is replaced. -/
def Unhexed (s : Bytes) (x y : Res) : Prop := x = y ∨ ∃ c : Nat, y = bad .hex c ∧ Instead s c x

theorem Unhexed.refl (s : Bytes) (x : Res) : Unhexed s x x := Or.inl rfl

theorem take_part {s d w r : Bytes} (e : s = d ++ (w ++ r)) : s.take (d.length + w.length) = d ++ w := by
  rw [e, ← List.append_assoc, ← List.length_append, List.take_left]

theorem Instead.nss {s d w r : Bytes} (e : s = d ++ (w ++ r)) (h1 : 35 ∉ d ++ w) (h2 : 63 ∉ d ++ w) :
    Instead s (d.length + w.length) (bad .specificString8141 (d.length + w.length)) := by
  unfold Instead; rw [take_part e, if_neg h1, if_neg h2]

theorem Instead.comp {s d w r : Bytes} (e : s = d ++ (w ++ r)) (h1 : 35 ∉ d ++ w) (h2 : 63 ∈ d) {x : Res}
    (h : x = bad .malformedRComp8141 (d.length + w.length) ∨ x = bad .malformedQComp8141 (d.length + w.length)) :
    Instead s (d.length + w.length) x := by
  unfold Instead; rw [take_part e, if_neg h1, if_pos (List.mem_append.2 (Or.inl h2))]; exact h

theorem Instead.frag {s d w r : Bytes} (e : s = d ++ (w ++ r)) (h1 : 35 ∈ d) : Instead s (d.length + w.length) (none, none) := by
  unfold Instead; rw [take_part e, if_pos (List.mem_append.2 (Or.inl h1))]

/-- A byte that no step accepts is not consumed. -/
theorem munch_not {σ : Type} {stp : σ → UInt8 → Option σ} {x : UInt8} (h : ∀ q, stp q x = none) (q : σ) (l : Bytes) :
    x ∉ (munch stp q l).2.1 := by
  induction l generalizing q with
  | nil => simp [munch]
  | cons c t ih =>
    simp only [munch]
    cases e : stp q c with
    | none => simp
    | some q' =>
      simp only [List.mem_cons, not_or]
      exact ⟨fun k => by subst k; rw [h q] at e; simp at e, ih q'⟩

theorem nss_no35 (q : Nss) : nssStep isPchar isPcharSlash q 35 = none := by cases q <;> decide
theorem nss_no63 (q : Nss) : nssStep isPchar isPcharSlash q 63 = none := by cases q <;> decide
theorem q_no35 (q : Q) : qStep q 35 = none := by cases q <;> decide
theorem r_no35 (q : R) : rStep q 35 = none := by cases q <;> decide
theorem nid8_no35 (q : N8) : nid8Step q 35 = none := by
  cases q <;> simp [nid8Step, show isAlnum 35 = false from rfl, show isDigit 35 = false from rfl]
theorem nid8_no63 (q : N8) : nid8Step q 63 = none := by
  cases q <;> simp [nid8Step, show isAlnum 63 = false from rfl, show isDigit 63 = false from rfl]

theorem nssErr_unhex {s d w r : Bytes} (e : s = d ++ (w ++ r)) (h1 : 35 ∉ d ++ w) (h2 : 63 ∉ d ++ w) (y : Nss) :
    Unhexed s (bad (nssErr false .specificString8141 y) (d.length + w.length)) (bad (nssErr true .specificString8141 y) (d.length + w.length)) := by
  cases y <;> first | exact .refl _ _ | exact Or.inr ⟨_, rfl, .nss e h1 h2⟩

theorem rErr_unhex {s d w r : Bytes} (e : s = d ++ (w ++ r)) (h1 : 35 ∉ d ++ w) (h2 : 63 ∈ d) (y : R) :
    Unhexed s (bad (rErr false y) (d.length + w.length)) (bad (rErr true y) (d.length + w.length)) := by
  cases y <;> first | exact .refl _ _ | exact Or.inr ⟨_, rfl, .comp e h1 h2 (Or.inl rfl)⟩

theorem qErr_unhex {s d w r : Bytes} (e : s = d ++ (w ++ r)) (h1 : 35 ∉ d ++ w) (h2 : 63 ∈ d) (y : Q) :
    Unhexed s (bad (qErr false y) (d.length + w.length)) (bad (qErr true y) (d.length + w.length)) := by
  cases y <;> first | exact .refl _ _ | exact Or.inr ⟨_, rfl, .comp e h1 h2 (Or.inl rfl)⟩ |
    exact Or.inr ⟨_, rfl, .comp e h1 h2 (Or.inr rfl)⟩

theorem refF_unhex {s d rest : Bytes} (o : URN) {b : Nat} (e : s = d ++ rest) (hb : b = d.length) (h1 : 35 ∈ d) :
    Unhexed s (refF false o rest b) (refF true o rest b) := by
  have ha := munch_append (nssStep isPcharSlashQ isPcharSlashQ) .start rest
  subst hb
  simp only [refF]
  split
  · exact .refl _ _
  · simp only [Bool.false_eq_true, false_and, if_false, true_and]
    split
    · exact Or.inr ⟨_, rfl, .frag (by rw [ha]; exact e) h1⟩
    · exact .refl _ _

theorem refQ_unhex {s d rest : Bytes} (o : URN) (q0 : Q) {b : Nat} (e : s = d ++ rest) (hb : b = d.length) (h1 : 35 ∉ d) (h2 : 63 ∈ d) :
    Unhexed s (refQ false o q0 rest b) (refQ true o q0 rest b) := by
  have ha := munch_append qStep q0 rest
  have hn : 35 ∉ d ++ (munch qStep q0 rest).2.1 := by simp only [List.mem_append, not_or]; exact ⟨h1, munch_not q_no35 _ _⟩
  subst hb
  simp only [refQ]
  generalize munch qStep q0 rest = y at *
  obtain ⟨y1, w, r⟩ := y
  dsimp only at ha hn ⊢
  rw [← ha] at e
  cases r with
  | nil =>
    dsimp only
    split
    · exact .refl _ _
    · split
      · exact .refl _ _
      · exact qErr_unhex e hn h2 _
  | cons c t =>
    dsimp only
    split
    · rename_i hc
      exact refF_unhex (d := d ++ w ++ [c]) _ (by rw [e]; simp) (by simp; omega) (by simp [hc.1])
    · split
      · exact .refl _ _
      · split
        · exact .refl _ _
        · exact qErr_unhex e hn h2 _

theorem refR_unhex {s d rest : Bytes} (o : URN) {b : Nat} (e : s = d ++ rest) (hb : b = d.length) (h1 : 35 ∉ d) (h2 : 63 ∈ d) :
    Unhexed s (refR false o rest b) (refR true o rest b) := by
  have ha := munch_append rStep .first rest
  have hn : 35 ∉ d ++ (munch rStep .first rest).2.1 := by simp only [List.mem_append, not_or]; exact ⟨h1, munch_not r_no35 _ _⟩
  subst hb
  simp only [refR]
  generalize munch rStep .first rest = y at *
  obtain ⟨y1, w, r⟩ := y
  dsimp only at ha hn ⊢
  rw [← ha] at e
  cases r with
  | nil =>
    dsimp only
    split
    · exact .refl _ _
    · split
      · exact .refl _ _
      · exact rErr_unhex e hn h2 _
  | cons c t =>
    dsimp only
    split
    · rename_i hc
      exact refF_unhex (d := d ++ w ++ [c]) _ (by rw [e]; simp) (by simp; omega) (by simp [hc.1])
    · split
      · exact .refl _ _
      · split
        · exact .refl _ _
        · split
          · exact refQ_unhex (d := d ++ w) _ _ (by rw [e]; simp) (by simp) hn (by simp [h2])
          · exact rErr_unhex e hn h2 _

theorem refRQComp_unhex {s d rest : Bytes} (o : URN) {b : Nat} (e : s = d ++ rest) (hb : b = d.length) (h1 : 35 ∉ d) (h2 : 63 ∈ d) :
    Unhexed s (refRQComp false o rest b) (refRQComp true o rest b) := by
  cases rest with
  | nil => exact .refl _ _
  | cons c t =>
    simp only [refRQComp]
    split
    · rename_i hc
      exact refR_unhex (d := d ++ [c]) _ (by rw [e]; simp) (by simp [hb]) (by subst hc; simp [h1]) (by simp [h2])
    · split
      · rename_i hc
        exact refQ_unhex (d := d ++ [c]) _ _ (by rw [e]; simp) (by simp [hb]) (by subst hc; simp [h1]) (by simp [h2])
      · exact .refl _ _

theorem refNss8141_unhex {s d rest : Bytes} (pre nid : Bytes) {b : Nat} (e : s = d ++ rest) (hb : b = d.length) (h1 : 35 ∉ d) (h2 : 63 ∉ d) :
    Unhexed s (refNss8141 false pre nid rest b) (refNss8141 true pre nid rest b) := by
  have ha := munch_append (nssStep isPchar isPcharSlash) .start rest
  have hn : 35 ∉ d ++ (munch (nssStep isPchar isPcharSlash) .start rest).2.1 := by
    simp only [List.mem_append, not_or]; exact ⟨h1, munch_not nss_no35 _ _⟩
  have hn2 : 63 ∉ d ++ (munch (nssStep isPchar isPcharSlash) .start rest).2.1 := by
    simp only [List.mem_append, not_or]; exact ⟨h2, munch_not nss_no63 _ _⟩
  subst hb
  simp only [refNss8141]
  generalize munch (nssStep isPchar isPcharSlash) .start rest = y at *
  obtain ⟨y1, w, r⟩ := y
  dsimp only at ha hn hn2 ⊢
  rw [← ha] at e
  cases r with
  | nil =>
    dsimp only
    split
    · exact .refl _ _
    · exact nssErr_unhex e hn hn2 _
  | cons c t =>
    dsimp only
    split
    · rename_i hc
      exact refF_unhex (d := d ++ w ++ [c]) _ (by rw [e]; simp) (by simp; omega) (by simp [hc.1])
    · split
      · rename_i hc
        exact refRQComp_unhex (d := d ++ w ++ [c]) _ (by rw [e]; simp) (by simp; omega)
          (by rw [hc.1]; simp only [List.mem_append, not_or] at hn ⊢; exact ⟨hn, by decide⟩) (by simp [hc.1])
      · exact nssErr_unhex e hn hn2 _

/-- The reserved word check is applied to texts that start with `urn:` only. -/
theorem ref8141_unhex (s : Bytes) :
    (ref8141 ⟨false, true⟩ s = bad .noUrnWithinID 7 ∧ lookahead s = true ∧ ∃ pre rest, s = pre ++ 58 :: rest ∧ IsUrn pre) ∨
    (Unhexed s (ref8141 ⟨false, true⟩ s) (ref8141 ⟨true, false⟩ s) ∧
      ¬ (lookahead s = true ∧ ∃ pre rest, s = pre ++ 58 :: rest ∧ IsUrn pre)) := by
  rcases refPrefix_cases s with ⟨pre, rest, h1, rfl⟩ | ⟨n, _, hne, hb⟩
  · simp only [ref8141]
    rw [refPrefix_urn h1, refPrefix_urn h1]
    simp only [refNid8141, Bool.false_eq_true, false_and, if_false, true_and]
    rw [clash_eq h1]
    by_cases hl : lookahead (pre ++ 58 :: rest) = true
    · left; exact ⟨by rw [if_pos hl], hl, pre, rest, rfl, h1⟩
    · right
      refine ⟨?_, fun h => hl h.1⟩
      rw [if_neg hl]
      have ha := munch_append nid8Step .start rest
      have n35 := munch_not nid8_no35 .start rest
      have n63 := munch_not nid8_no63 .start rest
      obtain ⟨a, b, c, rfl, k1, k2, k3⟩ := isUrn_iff.mp h1
      have p35 : (35 : UInt8) ∉ [a, b, c] := by
        simp only [List.mem_cons, List.not_mem_nil, or_false, not_or]
        exact ⟨by rintro rfl; revert k1; decide, by rintro rfl; revert k2; decide, by rintro rfl; revert k3; decide⟩
      have p63 : (63 : UInt8) ∉ [a, b, c] := by
        simp only [List.mem_cons, List.not_mem_nil, or_false, not_or]
        exact ⟨by rintro rfl; revert k1; decide, by rintro rfl; revert k2; decide, by rintro rfl; revert k3; decide⟩
      generalize munch nid8Step .start rest = x at *
      obtain ⟨x1, w, r⟩ := x
      dsimp only at ha n35 n63 ⊢
      cases r with
      | nil => exact .refl _ _
      | cons z t =>
        dsimp only
        split
        · rename_i hz
          refine refNss8141_unhex (d := [a, b, c] ++ [58] ++ w ++ [z]) _ _ (by rw [← ha]; simp) (by simp; omega) ?_ ?_
          · rw [hz.1]; simp only [List.mem_append, not_or]; exact ⟨⟨⟨p35, by decide⟩, n35⟩, by decide⟩
          · rw [hz.1]; simp only [List.mem_append, not_or]; exact ⟨⟨⟨p63, by decide⟩, n63⟩, by decide⟩
        · split <;> exact .refl _ _
  · right
    simp only [ref8141]
    rw [hb, hb]
    refine ⟨.refl _ _, ?_⟩
    rintro ⟨_, pre, rest, rfl, h⟩
    have := hb (fun _ _ => (none, none))
    rw [refPrefix_urn h] at this
    simp [bad] at this

/-! Without the flag no malformed escape error is ever reported. -/

/-- The outcome has no malformed escape error. -/
def NoHex (x : Res) : Prop := ∀ c, x.2 ≠ some ⟨.hex, c⟩

theorem nohex_bad {k : ErrKind} {p : Nat} (h : k ≠ .hex) : NoHex (bad k p) := by
  intro c hc; simp [bad] at hc; exact h hc.1

theorem nohex_none {x : Option URN} : NoHex (x, none) := by intro c hc; simp at hc

theorem nssErr_nohex (y : Nss) : nssErr false .specificString8141 y ≠ .hex := by cases y <;> simp [nssErr]
theorem rErr_nohex (y : R) : rErr false y ≠ .hex := by cases y <;> simp [rErr]
theorem qErr_nohex (y : Q) : qErr false y ≠ .hex := by cases y <;> simp [qErr]

theorem refF_nohex (o : URN) (rest : Bytes) (b : Nat) : NoHex (refF false o rest b) := by
  simp only [refF, Bool.false_eq_true, false_and, if_false]
  split <;> exact nohex_none

theorem refQQ_nohex (rest : Bytes) (b : Nat) : NoHex (refQQ rest b) := by
  simp only [refQQ]
  split
  · exact nohex_bad (by simp)
  · split
    · split
      · exact nohex_bad (by simp)
      · split <;> exact nohex_bad (by simp)
    · exact nohex_bad (by simp)

theorem refRQ_nohex (rest : Bytes) (b : Nat) : NoHex (refRQ rest b) := by
  simp only [refRQ]
  split
  · exact nohex_bad (by simp)
  · split
    · split
      · exact nohex_bad (by simp)
      · split <;> exact nohex_bad (by simp)
    · exact nohex_bad (by simp)

theorem refQ_nohex (o : URN) (q0 : Q) (rest : Bytes) (b : Nat) : NoHex (refQ false o q0 rest b) := by
  simp only [refQ]
  split
  · split
    · exact nohex_none
    · split
      · exact nohex_bad (by simp)
      · exact nohex_bad (qErr_nohex _)
  · split
    · exact refF_nohex _ _ _
    · split
      · exact refQQ_nohex _ _
      · split
        · exact nohex_bad (by simp)
        · exact nohex_bad (qErr_nohex _)

theorem refR_nohex (o : URN) (rest : Bytes) (b : Nat) : NoHex (refR false o rest b) := by
  simp only [refR]
  split
  · split
    · exact nohex_none
    · split
      · exact nohex_bad (by simp)
      · exact nohex_bad (rErr_nohex _)
  · split
    · exact refF_nohex _ _ _
    · split
      · exact refRQ_nohex _ _
      · split
        · exact nohex_bad (by simp)
        · split
          · exact refQ_nohex _ _ _ _
          · exact nohex_bad (rErr_nohex _)

theorem refNss8141_nohex (pre nid rest : Bytes) (b : Nat) : NoHex (refNss8141 false pre nid rest b) := by
  simp only [refNss8141, refRQComp]
  split
  · split
    · exact nohex_none
    · exact nohex_bad (nssErr_nohex _)
  · split
    · exact refF_nohex _ _ _
    · split
      · split
        · exact nohex_none
        · split
          · exact refR_nohex _ _ _
          · split
            · exact refQ_nohex _ _ _ _
            · exact nohex_none
      · exact nohex_bad (nssErr_nohex _)

theorem ref8141_nohex {chk : Bool} {s : Bytes} {c : Int} : ¬ (ref8141 ⟨false, chk⟩ s).2 = some ⟨.hex, c⟩ := by
  suffices NoHex (ref8141 ⟨false, chk⟩ s) from this c
  simp only [ref8141, refPrefix]
  split
  · simp only [refNid8141]
    split
    · exact nohex_bad (by simp)
    · split
      · exact nohex_bad (by simp)
      · split
        · exact refNss8141_nohex _ _ _ _
        · split <;> exact nohex_bad (by simp)
  · exact nohex_bad (by simp)

end Urn
