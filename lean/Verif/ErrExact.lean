import Verif.PropsErrKind
import Verif.EquivAux
/-!
# Errors of the reference parser: exact columns in RFC 8141 mode
-/
set_option autoImplicit false
namespace Urn
open Spec

/-- What follows `pre:nid:nss?`. -/
theorem ref8141_comp {pre nid nss : Bytes} (h1 : IsUrn pre) (h2 : Nid8141 nid) (h3 : Nss8141 nss) : ∃ o, ∀ w,
    ref8141 ⟨true, false⟩ ((pre ++ 58 :: nid ++ 58 :: nss) ++ 63 :: w) = refRQComp true o w ((pre ++ 58 :: nid ++ 58 :: nss).length + 1) := by
  refine ⟨withNss (if startsUrn nid then nid.take 3 else pre) nid nss, fun w => ?_⟩
  have e : (pre ++ 58 :: nid ++ 58 :: nss) ++ 63 :: w = pre ++ 58 :: (nid ++ 58 :: (nss ++ 63 :: w)) := by simp
  rw [e, ref8141, refPrefix_urn h1, refNid8141_nid h2, if_neg (by simp), refNss8141_ok h3 (Or.inr ⟨63, w, rfl, Or.inr rfl⟩)]
  dsimp only
  rw [if_neg (by decide)]
  congr 1
  simp [h1.length]; omega

theorem refRQ_col {t : Bytes} {b : Nat} {e : Err} (h : refRQ t b = (none, some e)) :
    (t.head? = some 43 → e.col = ((b + 1 : Nat) : Int)) ∧ (t.head? ≠ some 43 → e.col = (b : Int)) := by
  cases t with
  | nil => rw [bad_inj h]; simp
  | cons c t =>
    by_cases hc : c = 43
    · subst hc
      cases t with
      | nil => simp only [refRQ, if_true] at h; rw [bad_inj h]; simp
      | cons d t =>
        simp only [refRQ, if_true] at h
        split at h <;> rw [bad_inj h] <;> simp
    · simp only [refRQ, if_neg hc] at h; rw [bad_inj h]; simp [hc]

theorem refQQ_col {t : Bytes} {b : Nat} {e : Err} (h : refQQ t b = (none, some e)) :
    (t.head? = some 61 → e.col = ((b + 1 : Nat) : Int)) ∧ (t.head? ≠ some 61 → e.col = (b : Int)) := by
  cases t with
  | nil => rw [bad_inj h]; simp
  | cons c t =>
    by_cases hc : c = 61
    · subst hc
      cases t with
      | nil => simp only [refQQ, if_true] at h; rw [bad_inj h]; simp
      | cons d t =>
        simp only [refQQ, if_true] at h
        split at h <;> rw [bad_inj h] <;> simp
    · simp only [refQQ, if_neg hc] at h; rw [bad_inj h]; simp [hc]

/-- The error of a component that begins with a question mark. -/
theorem comp_qm {o : URN} {c : UInt8} {t : Bytes} {b : Nat} {e : Err} (hc : c = 43 ∨ c = 61) (h : refRQComp true o (c :: 63 :: t) b = (none, some e)) :
    (t.head? = some c → e.col = ((b + 3 : Nat) : Int)) ∧ (t.head? ≠ some c → e.col = ((b + 2 : Nat) : Int)) := by
  rcases hc with rfl | rfl
  · exact refRQ_col (b := b + 2) h
  · exact refQQ_col (b := b + 2) h

/-- The error is reported where the input can still be completed. -/
def At (k : Bytes → Res) (b : Nat) (rest : Bytes) (e : Err) : Prop := ∃ n, n ≤ rest.length ∧ e.at = ((b + n : Nat) : Int) ∧ Via k (rest.take n)

theorem At.eof {k : Bytes → Res} {b : Nat} {rest : Bytes} {e : Err} (h : e.at = ((b + rest.length : Nat) : Int)) (hv : Via k rest) : At k b rest e :=
  ⟨rest.length, Nat.le_refl _, h, by rw [List.take_length]; exact hv⟩

theorem At.leaf {k : Bytes → Res} {b : Nat} {w x : Bytes} {e : Err} (h : e.at = ((b + w.length : Nat) : Int)) (hv : Via k w) : At k b (w ++ x) e :=
  ⟨w.length, by simp, h, by rw [List.take_left]; exact hv⟩

theorem At.sub {k k' : Bytes → Res} {b : Nat} {w : Bytes} {c : UInt8} {t : Bytes} {e : Err}
    (hk : ∀ x, k (w ++ c :: x) = k' x) (h : At k' (b + w.length + 1) t e) : At k b (w ++ c :: t) e := by
  obtain ⟨n, h1, h2, h3⟩ := h
  refine ⟨w.length + 1 + n, by simp; omega, by rw [h2]; congr 1; omega, ?_⟩
  rw [take_app_sub]
  exact Via.sub hk h3

theorem at_F {hx : Bool} {o : URN} {b : Nat} {rest : Bytes} {e : Err} (h : refF hx o rest b = (none, some e)) : At (fun r => refF hx o r b) b rest e := by
  obtain ⟨n, h1, h2, _, h4⟩ := best_F hx o b rest e h
  refine ⟨n, h1, ?_, h2⟩
  rcases h4 with h4 | ⟨h4, _⟩
  · exact h4
  · exfalso
    simp only [refF] at h
    split at h
    · simp at h
    · split at h
      · rw [bad_inj h] at h4; simp [CompKind] at h4
      · simp at h

theorem at_Q {hx : Bool} {o : URN} {q0 : Q} {b : Nat} {rest : Bytes} {e : Err} (h : refQ hx o q0 rest b = (none, some e)) (hq : q0 = .first → rest.head? ≠ some 63) :
    At (fun r => refQ hx o q0 r b) b rest e := by
  rcases munch_split qStep q0 rest with ⟨q, hm⟩ | ⟨q, w, c, t, rfl, _, hm⟩
  · have hv := via_Q (hx := hx) (o := o) (b := b) (munch_steps hm)
    simp only [refQ, hm] at h
    split at h
    · simp at h
    · split at h
      · rw [bad_inj h]
        exact At.eof (at_bad (by decide) (by decide)) hv
      · rw [bad_inj h]
        exact At.eof (at_bad (qErr_ne hx q).1 (qErr_ne hx q).2) hv
  · have hv := via_Q (hx := hx) (o := o) (b := b) (munch_steps (hm []))
    have hs := munch_steps (hm [])
    simp only [refQ, hm] at h
    by_cases h1 : c = 35 ∧ q.canEnd = true
    · rw [if_pos h1] at h
      refine At.sub (k' := fun r => refF hx { o with qComponent := w, qStart := true, tolower := o.tolower ++ ups .plain 0 w } r (b + w.length + 1)) ?_ (at_F h)
      intro x
      simp only [refQ, hm, if_pos h1]
    · rw [if_neg h1] at h
      by_cases h2 : q = .first ∧ c = 63
      · exfalso
        obtain ⟨rfl, rfl⟩ := h2
        rcases steps_snoc hs with ⟨rfl, h0⟩ | ⟨v, c', q1, _, _, hq⟩
        · exact hq h0 (by simp)
        · have : ∀ q1 : Q, ∀ c', qStep q1 c' ≠ some .first := by
            intro q1 c'; cases q1 <;> simp only [qStep] <;> (repeat' split) <;> simp
          exact this _ _ hq
      · rw [if_neg h2] at h
        split at h
        · rw [bad_inj h]
          exact At.leaf (at_bad (by decide) (by decide)) hv
        · rw [bad_inj h]
          exact At.leaf (at_bad (qErr_ne hx q).1 (qErr_ne hx q).2) hv

theorem at_R {hx : Bool} {o : URN} {b : Nat} {rest : Bytes} {e : Err} (h : refR hx o rest b = (none, some e)) (hq : rest.head? ≠ some 63) :
    At (fun r => refR hx o r b) b rest e := by
  rcases munch_split rStep .first rest with ⟨q, hm⟩ | ⟨q, w, c, t, rfl, _, hm⟩
  · have hv := via_R (hx := hx) (o := o) (b := b) (munch_steps hm)
    simp only [refR, hm] at h
    split at h
    · simp at h
    · split at h
      · rw [bad_inj h]
        exact At.eof (at_bad (by decide) (by decide)) hv
      · rw [bad_inj h]
        exact At.eof (at_bad (rErr_ne hx q).1 (rErr_ne hx q).2) hv
  · have hv := via_R (hx := hx) (o := o) (b := b) (munch_steps (hm []))
    have hs := munch_steps (hm [])
    simp only [refR, hm] at h
    by_cases h1 : c = 35 ∧ q.canEnd = true
    · rw [if_pos h1] at h
      refine At.sub (k' := fun r => refF hx { o with rComponent := w, rStart := true, tolower := o.tolower ++ ups .plain 0 w } r (b + w.length + 1)) ?_ (at_F h)
      intro x
      simp only [refR, hm, if_pos h1]
    · rw [if_neg h1] at h
      by_cases h2 : q = .first ∧ c = 63
      · exfalso
        obtain ⟨rfl, rfl⟩ := h2
        rcases steps_snoc hs with ⟨rfl, h0⟩ | ⟨v, c', q1, _, _, hq⟩
        · exact hq (by simp)
        · have : ∀ q1 : R, ∀ c', rStep q1 c' ≠ some .first := by
            intro q1 c'; cases q1 <;> simp only [rStep] <;> (repeat' split) <;> simp
          exact this _ _ hq
      · rw [if_neg h2] at h
        by_cases h3 : q = .qp ∧ startsAgain c = true
        · rw [if_pos h3] at h
          rw [bad_inj h]
          exact At.leaf (at_bad (by decide) (by decide)) hv
        · rw [if_neg h3] at h
          by_cases h4 : q = .qe ∧ (isPchar c = true ∨ c = 37)
          · rw [if_pos h4] at h
            obtain ⟨n, g1, g2, x, u, g3⟩ := at_Q h (by simp)
            have e1 : ∀ n x, (w ++ c :: t).take (w.length + (n + 1)) ++ x = w ++ c :: (t.take n ++ x) := by
              intro n x
              rw [show w.length + (n + 1) = w.length + 1 + n by omega, take_app_sub]; simp
            refine ⟨w.length + n, by simp at g1 ⊢; omega, by rw [g2]; congr 1; omega, ?_⟩
            cases n with
            | zero => rw [Nat.add_zero, List.take_left]; exact hv
            | succ n =>
              refine ⟨x, u, ?_⟩
              simp only [e1]
              simp only [refR, hm, if_neg h1, if_neg h2, if_neg h3, if_pos h4]
              simpa using g3
          · rw [if_neg h4] at h
            rw [bad_inj h]
            exact At.leaf (at_bad (rErr_ne hx q).1 (rErr_ne hx q).2) hv

theorem at_RQComp {o : URN} {c : UInt8} {w : Bytes} {b : Nat} {e : Err} (h : refRQComp true o (c :: w) b = (none, some e)) (hw : w.head? ≠ some 63) :
    At (fun r => refRQComp true o r b) b (c :: w) e := by
  by_cases h1 : c = 43
  · rw [refRQComp, if_pos h1] at h
    refine At.sub (w := []) (k' := fun r => refR true o r (b + 1)) ?_ (at_R h hw)
    intro x; simp [refRQComp, h1]
  · rw [refRQComp, if_neg h1] at h
    by_cases h2 : c = 61
    · rw [if_pos h2] at h
      refine At.sub (w := []) (k' := fun r => refQ true o .first r (b + 1)) ?_ (at_Q h fun _ => hw)
      intro x; simp [refRQComp, h2]
    · rw [if_neg h2] at h; simp at h

end Urn
