import Verif.PropsParse
/-!
# Errors of the reference parser: position and locality
-/
set_option autoImplicit false
namespace Urn
open Spec

/-- The position of the byte that caused the error (the input length if it was the end): the
column, except for two kinds of errors whose column is one less. -/
def Err.«at» (e : Err) : Int :=
  if e.kind = .informalID8141 ∨ e.kind = .scimOtherIncomplete then e.col + 1 else e.col

/-- The error of `k` on `rest` is caused by the byte at `b + n`, and does not depend on the bytes
after it. -/
def LocAt (k : Bytes → Res) (b : Nat) (rest : Bytes) (e : Err) : Prop :=
  0 ≤ e.col ∧ ∃ n, e.at = ((b + n : Nat) : Int) ∧ n ≤ rest.length ∧ (n < rest.length → ∀ x, k (rest.take (n + 1) ++ x) = (none, some e))

/-- All errors of `k` are local. -/
def Loc (k : Bytes → Res) (b : Nat) : Prop := ∀ rest e, k rest = (none, some e) → LocAt k b rest e

theorem LocAt.eof {k : Bytes → Res} {b : Nat} {rest : Bytes} {e : Err} (h : e.at = ((b + rest.length : Nat) : Int))
    (h0 : 0 ≤ e.col := by exact Int.natCast_nonneg _) : LocAt k b rest e :=
  ⟨h0, rest.length, h, Nat.le_refl _, fun h => absurd h (Nat.lt_irrefl _)⟩

theorem take_app (w : Bytes) (c : UInt8) (t x : Bytes) : (w ++ c :: t).take (w.length + 1) ++ x = w ++ c :: x := by
  rw [List.take_append, List.take_of_length_le (by omega), show w.length + 1 - w.length = 1 by omega]; simp

theorem LocAt.leaf {k : Bytes → Res} {b : Nat} {w : Bytes} {c : UInt8} {t : Bytes} {e : Err}
    (h : e.at = ((b + w.length : Nat) : Int)) (hk : ∀ x, k (w ++ c :: x) = (none, some e))
    (h0 : 0 ≤ e.col := by exact Int.natCast_nonneg _) : LocAt k b (w ++ c :: t) e := by
  refine ⟨h0, w.length, h, by simp, fun _ x => ?_⟩
  rw [take_app]; exact hk x

theorem LocAt.sub {k k' : Bytes → Res} {b : Nat} {w : Bytes} {c : UInt8} {t : Bytes} {e : Err}
    (h : k (w ++ c :: t) = (none, some e)) (hk : ∀ x, k (w ++ c :: x) = k' x) (hl : Loc k' (b + w.length + 1)) :
    LocAt k b (w ++ c :: t) e := by
  rw [hk] at h
  obtain ⟨h0, n, h1, h2, h3⟩ := hl t e h
  refine ⟨h0, w.length + 1 + n, by rw [h1]; congr 1; omega, by simp; omega, fun hn x => ?_⟩
  have e1 : (w ++ c :: t).take (w.length + 1 + n + 1) ++ x = w ++ c :: (t.take (n + 1) ++ x) := by
    rw [List.take_append, List.take_of_length_le (by omega)]
    rw [show w.length + 1 + n + 1 - w.length = (n + 1) + 1 by omega]
    simp
  rw [e1, hk]
  exact h3 (by simp at hn; omega) x

/-- Split an input at the point where a scanner stops. -/
theorem munch_split {σ : Type} (stp : σ → UInt8 → Option σ) (q : σ) (l : Bytes) :
    (∃ q', munch stp q l = (q', l, [])) ∨
    (∃ q' w c t, l = w ++ c :: t ∧ stp q' c = none ∧ ∀ x, munch stp q (w ++ c :: x) = (q', w, c :: x)) := by
  have h1 := munch_append stp q l
  have h2 := steps_munch (stp := stp) q l
  rcases h3 : munch stp q l with ⟨q', w, r⟩
  rw [h3] at h1 h2
  simp only at h1 h2
  cases r with
  | nil => simp at h1; subst h1; exact Or.inl ⟨q', rfl⟩
  | cons c t =>
    have h4 := munch_stop stp q l (c := c) (t := t) (by rw [h3])
    rw [h3] at h4
    refine Or.inr ⟨q', w, c, t, h1.symm, h4, fun x => ?_⟩
    apply munch_eq h2
    intro c' t' h; simp at h; rw [← h.1]; exact h4

theorem at_bad {k : ErrKind} {n : Nat} (h : k ≠ .informalID8141) (h' : k ≠ .scimOtherIncomplete) : (⟨k, n⟩ : Err).at = n := by
  simp [Err.at, h, h']

theorem nssErr_ne {hx : Bool} {k : ErrKind} {q : Nss} (h : k ≠ .informalID8141) (h' : k ≠ .scimOtherIncomplete) :
    nssErr hx k q ≠ .informalID8141 ∧ nssErr hx k q ≠ .scimOtherIncomplete := by
  cases q <;> cases hx <;> simp [nssErr, h, h']

theorem bad_inj {k : ErrKind} {n : Nat} {e : Err} (h : bad k n = (none, some e)) : e = ⟨k, n⟩ := by
  simp [bad] at h; exact h.symm

/-! ## RFC 2141 -/

theorem loc_nss2141 (hx : Bool) (pre nid : Bytes) (b : Nat) : Loc (fun r => refNss2141 hx pre nid r b) b := by
  intro rest e h
  rcases munch_split (nssStep isSss isSss) .start rest with ⟨q, hm⟩ | ⟨q, w, c, t, rfl, _, hm⟩
  · simp only [refNss2141, hm] at h
    split at h
    · simp at h
    · rw [bad_inj h]
      exact LocAt.eof (at_bad (nssErr_ne (by decide) (by decide)).1 (nssErr_ne (by decide) (by decide)).2)
  · have hk : ∀ x, refNss2141 hx pre nid (w ++ c :: x) b = bad (nssErr hx .specificString q) (b + w.length) := by
      intro x; simp [refNss2141, hm]
    simp only [hk] at h
    rw [bad_inj h]
    exact LocAt.leaf (at_bad (nssErr_ne (by decide) (by decide)).1 (nssErr_ne (by decide) (by decide)).2) hk

/-- The identifier, without the look-ahead. -/
def scanNid2141 (hx : Bool) (pre rest : Bytes) : Res := refNid2141 ⟨hx, false⟩ pre rest

theorem refNid2141_scan (fl : Flags) (pre rest : Bytes) : refNid2141 fl pre rest =
    if fl.chk ∧ clash rest then bad .noUrnWithinID 7 else scanNid2141 fl.hx pre rest := by
  unfold scanNid2141 refNid2141
  simp

theorem loc_nid2141 (hx : Bool) (pre : Bytes) : Loc (scanNid2141 hx pre) 4 := by
  intro rest e h
  rcases munch_split nid2Step .start rest with ⟨q, hm⟩ | ⟨q, w, c, t, rfl, _, hm⟩
  · simp [scanNid2141, refNid2141, hm] at h
    rw [bad_inj h]
    exact LocAt.eof (at_bad (by decide) (by decide))
  · by_cases hc : c = 58 ∧ q.canEnd = true
    · refine LocAt.sub h (k' := fun r => refNss2141 hx pre w r (4 + w.length + 1)) ?_ (loc_nss2141 hx pre w _)
      intro x
      simp only [scanNid2141, refNid2141, hm, if_pos hc]; simp
    · have hk : ∀ x, scanNid2141 hx pre (w ++ c :: x) = bad .identifier (4 + w.length) := by
        intro x
        simp only [scanNid2141, refNid2141, hm]
        simp [hc]
      rw [hk] at h
      rw [bad_inj h]
      exact LocAt.leaf (at_bad (by decide) (by decide)) hk

/-! ## Prefix -/

theorem litStep_none' {pat : List (UInt8 → Bool)} {i : Nat} {c : UInt8} : litStep pat i c = none ∨ litStep pat i c = some (i + 1) := by
  unfold litStep
  split
  · split <;> simp
  · simp

theorem lit_len (pat : List (UInt8 → Bool)) (l : Bytes) (i : Nat) : (munch (litStep pat) i l).1 = i + (munch (litStep pat) i l).2.1.length := by
  induction l generalizing i with
  | nil => simp [munch]
  | cons c r ih =>
    simp only [munch]
    rcases litStep_none' (pat := pat) (i := i) (c := c) with h | h
    · simp [h]
    · simp only [h, List.length_cons]
      rw [ih (i + 1)]; omega

theorem loc_prefix {k : Bytes → Bytes → Res} (h : ∀ pre, IsUrn pre → Loc (k pre) 4) : Loc (fun s => refPrefix s k) 0 := by
  intro s e hs
  by_cases hp : ∃ pre rest, IsUrn pre ∧ s = pre ++ 58 :: rest
  · obtain ⟨pre, rest, h1, rfl⟩ := hp
    refine LocAt.sub hs (k' := k pre) (fun x => refPrefix_urn h1) ?_
    rw [h1.length]; exact h pre h1
  · have hlt : ∀ x, ((∀ pre rest, IsUrn pre → x ≠ pre ++ 58 :: rest)) → refPrefix x k = bad .pfx (munch (litStep urnPat) 0 x).1 :=
      fun x h => refPrefix_bad h k
    have hb := hlt s (fun pre rest h1 h2 => hp ⟨pre, rest, h1, h2⟩)
    simp only [hb] at hs
    have hl := lit_len urnPat s 0
    rcases munch_split (litStep urnPat) 0 s with ⟨q, hm⟩ | ⟨q, w, c, t, rfl, hq, hm⟩
    · rw [bad_inj hs]
      rw [hm] at hl ⊢
      simp only [Nat.zero_add] at hl
      subst hl
      exact LocAt.eof (by rw [at_bad (by decide) (by decide)]; simp)
    · rw [bad_inj hs]
      rw [hm] at hl ⊢
      simp only [Nat.zero_add] at hl
      subst hl
      have hk : ∀ x, refPrefix (w ++ c :: x) k = bad .pfx w.length := by
        intro x
        simp only [refPrefix, hm]
        rw [if_neg]
        intro h4
        have := hm t
        simp only [refPrefix, hm t, if_pos h4] at hb
        have h5 := refPrefix_cases (w ++ c :: t)
        rcases h5 with ⟨pre, rest, h6, h7⟩ | ⟨n, _, h6, h7⟩
        · exact hp ⟨pre, rest, h6, h7⟩
        · have h8 := h7 (fun _ _ => (none, none))
          simp only [refPrefix, hm t, if_pos h4] at h8
          simp [bad] at h8
      exact LocAt.leaf (by rw [at_bad (by decide) (by decide)]; simp) hk

/-! ## SCIM -/

theorem loc_scimOther (hx : Bool) (pre kw : Bytes) (ty : SchemaType) (name : Bytes) (b : Nat) (hb : 1 ≤ b) :
    Loc (fun r => refScimOther hx pre kw ty name r b) b := by
  intro rest e h
  rcases munch_split (nssStep isSss isSss) .start rest with ⟨q, hm⟩ | ⟨q, w, c, t, rfl, _, hm⟩
  · simp only [refScimOther, hm, if_true] at h
    split at h
    · simp at h
    · split at h
      · rw [bad_inj h]
        exact LocAt.eof (at_bad (by decide) (by decide))
      · simp at h; subst h
        exact LocAt.eof (by simp [Err.at]) (by simp only; omega)
  · have hk : ∀ x, refScimOther hx pre kw ty name (w ++ c :: x) b = bad (nssErr hx .scimOther q) (b + w.length) := by
      intro x; simp [refScimOther, hm]
    simp only [hk] at h
    rw [bad_inj h]
    exact LocAt.leaf (at_bad (nssErr_ne (by decide) (by decide)).1 (nssErr_ne (by decide) (by decide)).2) hk

theorem loc_scimName (hx : Bool) (pre kw : Bytes) (ty : SchemaType) (b : Nat) :
    Loc (fun r => refScimName hx pre kw ty r b) b := by
  intro rest e h
  rcases munch_split nameStep false rest with ⟨q, hm⟩ | ⟨q, w, c, t, rfl, _, hm⟩
  · cases q with
    | true => simp [refScimName, hm] at h
    | false =>
      have hs := steps_munch (stp := nameStep) false rest
      rw [hm] at hs
      obtain ⟨_, h3⟩ := name_steps.mp hs
      simp at h3
      simp only [refScimName, hm] at h
      rw [bad_inj h, h3]
      exact LocAt.eof (at_bad (by decide) (by decide))
  · cases q with
    | true =>
      by_cases hc : c = 58
      · refine LocAt.sub h (k' := fun r => refScimOther hx pre kw ty w r (b + w.length + 1)) ?_ (loc_scimOther hx pre kw ty w _ (by omega))
        intro x
        simp only [refScimName, hm, if_pos hc]; simp
      · have hk : ∀ x, refScimName hx pre kw ty (w ++ c :: x) b = bad .scimName (b + w.length) := by
          intro x; simp [refScimName, hm, hc]
        simp only [hk] at h
        rw [bad_inj h]
        exact LocAt.leaf (at_bad (by decide) (by decide)) hk
    | false =>
      have hs := steps_munch (stp := nameStep) false (w ++ c :: t)
      rw [hm] at hs
      obtain ⟨_, h3⟩ := name_steps.mp hs
      simp at h3
      subst h3
      have hk : ∀ x, refScimName hx pre kw ty ([] ++ c :: x) b = bad .scimName b := by
        intro x; simp only [refScimName, hm]; rfl
      simp only [hk] at h
      rw [bad_inj h]
      exact LocAt.leaf (at_bad (by decide) (by decide)) hk

/-- A fixed word, then `k`. -/
theorem loc_lit {word : Bytes} {ek : ErrKind} {b : Nat} {k k' : Bytes → Res} (he : ek ≠ .informalID8141 ∧ ek ≠ .scimOtherIncomplete)
    (hw : word ≠ [])
    (hf : ∀ r, k r = if (munch (litStep (litPat word)) 0 r).1 = word.length then k' (munch (litStep (litPat word)) 0 r).2.2
      else bad ek (b + (munch (litStep (litPat word)) 0 r).1)) (hk' : Loc k' (b + word.length)) : Loc k b := by
  intro rest e h
  by_cases hl : (munch (litStep (litPat word)) 0 rest).1 = word.length
  · have hr := lit_full hl
    generalize (munch (litStep (litPat word)) 0 rest).2.2 = r at hr
    subst hr
    obtain ⟨w, c, rfl⟩ : ∃ w c, word = w ++ [c] := ⟨word.dropLast, word.getLast hw, (List.dropLast_concat_getLast hw).symm⟩
    have hk : ∀ x, k (w ++ c :: x) = k' x := by
      intro x
      have e1 : w ++ c :: x = (w ++ [c]) ++ x := by simp
      rw [hf, e1, lit_munch]; simp
    rw [show (w ++ [c]) ++ r = w ++ c :: r by simp] at h ⊢
    exact LocAt.sub h hk (by have : b + w.length + 1 = b + (w ++ [c]).length := by simp; omega
                             rw [this]; exact hk')
  · have h' := h
    rw [hf, if_neg hl] at h'
    rw [bad_inj h']
    have hlen := lit_len (litPat word) rest 0
    rw [Nat.zero_add] at hlen
    rcases munch_split (litStep (litPat word)) 0 rest with ⟨q, hm⟩ | ⟨q, w, c, t, rfl, hq, hm⟩
    · rw [hm] at hlen ⊢
      simp only at hlen ⊢
      rw [hlen]
      exact LocAt.eof (at_bad he.1 he.2)
    · rw [hm] at hlen hl ⊢
      simp only at hlen hl ⊢
      subst hlen
      refine LocAt.leaf (at_bad he.1 he.2) (fun x => ?_)
      rw [hf, hm, if_neg hl]; rfl

theorem loc_scimType (hx : Bool) (pre : Bytes) : Loc (refScimType hx pre) 21 := by
  intro rest e h
  cases rest with
  | nil =>
    simp [refScimType] at h
    rw [bad_inj h]
    exact LocAt.eof (at_bad (by decide) (by decide))
  | cons c t =>
    cases hk : kwOf c with
    | none =>
      have hr : ∀ x, refScimType hx pre ([] ++ c :: x) = bad .scimType 21 := by
        intro x; simp [refScimType, hk]
      rw [show c :: t = [] ++ c :: t from rfl, hr] at h
      rw [bad_inj h]
      exact LocAt.leaf (w := []) (at_bad (by decide) (by decide)) hr
    | some kt =>
      obtain ⟨kw, ty⟩ := kt
      let k2 : Bytes → Res := fun rest => 
        let y := munch (litStep (litPat (kw ++ lit ":"))) 0 rest
        if y.1 = kw.length + 1 then refScimName hx pre kw ty y.2.2 (21 + kw.length + 1)
        else bad .scimType (21 + y.1)
      have hr : ∀ x, refScimType hx pre (c :: x) = k2 (c :: x) := by
        intro x; simp only [refScimType, List.head?_cons, Option.bind_some, hk]; rfl
      have hl : Loc k2 21 := by
        refine loc_lit (word := kw ++ lit ":") (ek := .scimType) (k' := fun r => refScimName hx pre kw ty r (21 + kw.length + 1)) (by decide) (by simp [lit]) ?_ ?_
        · intro r; simp only [List.length_append]; rfl
        · have : 21 + (kw ++ lit ":").length = 21 + kw.length + 1 := by simp; rfl
          rw [this]; exact loc_scimName hx pre kw ty _
      rw [hr] at h
      obtain ⟨h0, n, h1, h2, h3⟩ := hl _ _ h
      refine ⟨h0, n, h1, h2, fun hn x => ?_⟩
      have := h3 hn x
      simp only [List.take_succ_cons, List.cons_append] at this ⊢
      rw [hr]; exact this

theorem loc_scimNs (hx : Bool) (pre : Bytes) : Loc (refScimNs hx pre) 4 := by
  refine loc_lit (word := lit "ietf:params:scim:") (ek := .scimNamespace) (k' := refScimType hx pre) (by decide) (by decide) ?_ ?_
  · intro r; rfl
  · exact loc_scimType hx pre

/-! ## RFC 8141 -/

theorem loc_F (hx : Bool) (o : URN) (b : Nat) : Loc (fun r => refF hx o r b) b := by
  intro rest e h
  rcases munch_split (nssStep isPcharSlashQ isPcharSlashQ) .start rest with ⟨q, hm⟩ | ⟨q, w, c, t, rfl, _, hm⟩
  · simp only [refF, hm] at h
    split at h
    · simp at h
    · split at h
      · rw [bad_inj h]
        exact LocAt.eof (at_bad (by decide) (by decide))
      · simp at h
  · have hk : ∀ x, refF hx o (w ++ c :: x) b = if hx = true ∧ q ≠ .start ∧ q ≠ .plain then bad .hex (b + w.length) else (none, none) := by
      intro x; simp [refF, hm]
    by_cases hq : hx = true ∧ q ≠ .start ∧ q ≠ .plain
    · simp only [hk, if_pos hq] at h
      rw [bad_inj h]
      exact LocAt.leaf (at_bad (by decide) (by decide)) (fun x => by rw [hk, if_pos hq]; rfl)
    · simp only [hk, if_neg hq] at h
      simp at h

/-- Composition helper: an error raised at the first byte. -/
theorem loc_head {k : Bytes → Res} {b : Nat} {c : UInt8} {t : Bytes} {ek : ErrKind} (he : ek ≠ .informalID8141 ∧ ek ≠ .scimOtherIncomplete)
    (hk : ∀ x, k (c :: x) = bad ek b) : LocAt k b (c :: t) ⟨ek, b⟩ :=
  LocAt.leaf (w := []) (at_bad he.1 he.2) hk

theorem loc_QQ (b : Nat) : Loc (fun r => refQQ r b) b := by
  intro rest e h
  match rest with
  | [] => rw [bad_inj h]; exact LocAt.eof (at_bad (by decide) (by decide))
  | c :: t =>
    by_cases hc : c = 61
    · subst hc
      match t with
      | [] =>
        simp only [refQQ, if_true] at h
        rw [bad_inj h]; exact LocAt.eof (at_bad (by decide) (by decide))
      | d :: t =>
        by_cases hd : startsAgain d = true
        · have hk : ∀ x, refQQ ([61] ++ d :: x) b = bad .qComponentStart8141 (b + 1) := by intro x; simp [refQQ, hd]
          simp only [show 61 :: d :: t = [61] ++ d :: t from rfl, hk] at h
          rw [bad_inj h]
          exact LocAt.leaf (w := [61]) (at_bad (by decide) (by decide)) hk
        · have hk : ∀ x, refQQ ([61] ++ d :: x) b = bad .malformedQComp8141 (b + 1) := by intro x; simp [refQQ, hd]
          simp only [show 61 :: d :: t = [61] ++ d :: t from rfl, hk] at h
          rw [bad_inj h]
          exact LocAt.leaf (w := [61]) (at_bad (by decide) (by decide)) hk
    · have hk : ∀ x, refQQ (c :: x) b = bad .malformedQComp8141 b := by intro x; simp [refQQ, hc]
      simp only [hk] at h
      rw [bad_inj h]
      exact loc_head (by decide) hk

theorem loc_RQ (b : Nat) : Loc (fun r => refRQ r b) b := by
  intro rest e h
  match rest with
  | [] => rw [bad_inj h]; exact LocAt.eof (at_bad (by decide) (by decide))
  | c :: t =>
    by_cases hc : c = 43
    · subst hc
      match t with
      | [] =>
        simp only [refRQ, if_true] at h
        rw [bad_inj h]; exact LocAt.eof (at_bad (by decide) (by decide))
      | d :: t =>
        by_cases hd : startsAgain d = true
        · have hk : ∀ x, refRQ ([43] ++ d :: x) b = bad .rComponentStart8141 (b + 1) := by intro x; simp [refRQ, hd]
          simp only [show 43 :: d :: t = [43] ++ d :: t from rfl, hk] at h
          rw [bad_inj h]
          exact LocAt.leaf (w := [43]) (at_bad (by decide) (by decide)) hk
        · have hk : ∀ x, refRQ ([43] ++ d :: x) b = bad .malformedRComp8141 (b + 1) := by intro x; simp [refRQ, hd]
          simp only [show 43 :: d :: t = [43] ++ d :: t from rfl, hk] at h
          rw [bad_inj h]
          exact LocAt.leaf (w := [43]) (at_bad (by decide) (by decide)) hk
    · have hk : ∀ x, refRQ (c :: x) b = bad .malformedRComp8141 b := by intro x; simp [refRQ, hc]
      simp only [hk] at h
      rw [bad_inj h]
      exact loc_head (by decide) hk

theorem qErr_ne (hx : Bool) (q : Q) : qErr hx q ≠ .informalID8141 ∧ qErr hx q ≠ .scimOtherIncomplete := by
  cases q <;> cases hx <;> decide

theorem rErr_ne (hx : Bool) (q : R) : rErr hx q ≠ .informalID8141 ∧ rErr hx q ≠ .scimOtherIncomplete := by
  cases q <;> cases hx <;> decide

theorem loc_Q (hx : Bool) (o : URN) (q0 : Q) (b : Nat) : Loc (fun r => refQ hx o q0 r b) b := by
  intro rest e h
  rcases munch_split qStep q0 rest with ⟨q, hm⟩ | ⟨q, w, c, t, rfl, _, hm⟩
  · simp only [refQ, hm] at h
    split at h
    · simp at h
    · split at h
      · rw [bad_inj h]
        exact LocAt.eof (at_bad (by decide) (by decide))
      · rw [bad_inj h]
        exact LocAt.eof (at_bad (qErr_ne hx q).1 (qErr_ne hx q).2)
  · by_cases h1 : c = 35 ∧ q.canEnd = true
    · refine LocAt.sub h (k' := fun r => refF hx { o with qComponent := w, qStart := true, tolower := o.tolower ++ ups .plain 0 w } r (b + w.length + 1)) ?_ (loc_F hx _ _)
      intro x
      simp only [refQ, hm, if_pos h1]
    · by_cases h2 : q = .first ∧ c = 63
      · have hb : (munch qStep q0 (w ++ c :: t)).2.1 = w := by rw [hm]
        -- the scanner never returns to its initial state
        have hw : w = [] := by
          have hs := steps_munch (stp := qStep) q0 (w ++ c :: t)
          rw [hm] at hs
          simp only at hs
          rw [h2.1] at hs
          rcases steps_snoc hs with ⟨h, _⟩ | ⟨v, c', q1, _, _, hq⟩
          · exact h
          · exfalso
            have : ∀ q1 : Q, ∀ c', qStep q1 c' ≠ some .first := by
              intro q1 c'; cases q1 <;> simp only [qStep] <;> (repeat' split) <;> simp
            exact this _ _ hq
        subst hw
        refine LocAt.sub (w := []) h (k' := fun r => refQQ r (b + 1)) ?_ (loc_QQ _)
        intro x
        simp only [refQ, hm, if_neg h1, if_pos h2]
      · by_cases h3 : q = .qe ∧ startsAgain c = true
        · have hk : ∀ x, refQ hx o q0 (w ++ c :: x) b = bad .qComponentStart8141 (b + w.length) := by
            intro x; simp only [refQ, hm, if_neg h1, if_neg h2, if_pos h3]
          simp only [hk] at h
          rw [bad_inj h]
          exact LocAt.leaf (at_bad (by decide) (by decide)) hk
        · have hk : ∀ x, refQ hx o q0 (w ++ c :: x) b = bad (qErr hx q) (b + w.length) := by
            intro x; simp only [refQ, hm, if_neg h1, if_neg h2, if_neg h3]
          simp only [hk] at h
          rw [bad_inj h]
          exact LocAt.leaf (at_bad (qErr_ne hx q).1 (qErr_ne hx q).2) hk

theorem loc_R (hx : Bool) (o : URN) (b : Nat) : Loc (fun r => refR hx o r b) b := by
  intro rest e h
  rcases munch_split rStep .first rest with ⟨q, hm⟩ | ⟨q, w, c, t, rfl, _, hm⟩
  · simp only [refR, hm] at h
    split at h
    · simp at h
    · split at h
      · rw [bad_inj h]
        exact LocAt.eof (at_bad (by decide) (by decide))
      · rw [bad_inj h]
        exact LocAt.eof (at_bad (rErr_ne hx q).1 (rErr_ne hx q).2)
  · by_cases h1 : c = 35 ∧ q.canEnd = true
    · refine LocAt.sub h (k' := fun r => refF hx { o with rComponent := w, rStart := true, tolower := o.tolower ++ ups .plain 0 w } r (b + w.length + 1)) ?_ (loc_F hx _ _)
      intro x
      simp only [refR, hm, if_pos h1]
    · by_cases h2 : q = .first ∧ c = 63
      · have hw : w = [] := by
          have hs := steps_munch (stp := rStep) .first (w ++ c :: t)
          rw [hm] at hs
          simp only at hs
          rw [h2.1] at hs
          rcases steps_snoc hs with ⟨h, _⟩ | ⟨v, c', q1, _, _, hq⟩
          · exact h
          · exfalso
            have : ∀ q1 : R, ∀ c', rStep q1 c' ≠ some .first := by
              intro q1 c'; cases q1 <;> simp only [rStep] <;> (repeat' split) <;> simp
            exact this _ _ hq
        subst hw
        refine LocAt.sub (w := []) h (k' := fun r => refRQ r (b + 1)) ?_ (loc_RQ _)
        intro x
        simp only [refR, hm, if_neg h1, if_pos h2]
      · by_cases h3 : q = .qp ∧ startsAgain c = true
        · have hk : ∀ x, refR hx o (w ++ c :: x) b = bad .rComponentStart8141 (b + w.length) := by
            intro x; simp only [refR, hm, if_neg h1, if_neg h2, if_pos h3]
          simp only [hk] at h
          rw [bad_inj h]
          exact LocAt.leaf (at_bad (by decide) (by decide)) hk
        · by_cases h4 : q = .qe ∧ (isPchar c = true ∨ c = 37)
          · have hk : ∀ x, refR hx o (w ++ c :: x) b = refQ hx { o with rComponent := w.take (w.length - 2), rStart := true, tolower := o.tolower ++ ups .plain 0 w } .firstR (c :: x) (b + w.length) := by
              intro x; simp only [refR, hm, if_neg h1, if_neg h2, if_neg h3, if_pos h4]
            simp only [hk] at h
            obtain ⟨h0, n, g1, g2, g3⟩ := loc_Q hx _ _ _ _ _ h
            refine ⟨h0, w.length + n, by rw [g1]; congr 1; omega, by simp at g2 ⊢; omega, fun hn x => ?_⟩
            have e1 : (w ++ c :: t).take (w.length + n + 1) ++ x = w ++ c :: (t.take n ++ x) := by
              rw [List.take_append, List.take_of_length_le (by omega)]
              rw [show w.length + n + 1 - w.length = n + 1 by omega]
              simp
            simp only [e1, hk]
            have := g3 (by simp at hn ⊢; omega) x
            simpa using this
          · have hk : ∀ x, refR hx o (w ++ c :: x) b = bad (rErr hx q) (b + w.length) := by
              intro x; simp only [refR, hm, if_neg h1, if_neg h2, if_neg h3, if_neg h4]
            simp only [hk] at h
            rw [bad_inj h]
            exact LocAt.leaf (at_bad (rErr_ne hx q).1 (rErr_ne hx q).2) hk

theorem loc_RQComp (hx : Bool) (o : URN) (b : Nat) : Loc (fun r => refRQComp hx o r b) b := by
  intro rest e h
  match rest with
  | [] => simp [refRQComp] at h
  | c :: t =>
    by_cases h1 : c = 43
    · refine LocAt.sub (w := []) h (k' := fun r => refR hx o r (b + 1)) ?_ (loc_R hx o _)
      intro x; simp [refRQComp, h1]
    · by_cases h2 : c = 61
      · refine LocAt.sub (w := []) h (k' := fun r => refQ hx o .first r (b + 1)) ?_ (loc_Q hx o _ _)
        intro x; simp [refRQComp, h2]
      · simp [refRQComp, h1, h2] at h

theorem loc_nss8141 (hx : Bool) (pre nid : Bytes) (b : Nat) : Loc (fun r => refNss8141 hx pre nid r b) b := by
  intro rest e h
  rcases munch_split (nssStep isPchar isPcharSlash) .start rest with ⟨q, hm⟩ | ⟨q, w, c, t, rfl, _, hm⟩
  · simp only [refNss8141, hm] at h
    split at h
    · simp at h
    · rw [bad_inj h]
      exact LocAt.eof (at_bad (nssErr_ne (by decide) (by decide)).1 (nssErr_ne (by decide) (by decide)).2)
  · by_cases h1 : c = 35 ∧ q.ok = true
    · refine LocAt.sub h (k' := fun r => refF hx { «prefix» := pre, ID := nid, SS := w, norm := lowerGo .plain w, tolower := ups .plain 0 w } r (b + w.length + 1)) ?_ (loc_F hx _ _)
      intro x; simp only [refNss8141, hm, if_pos h1]
    · by_cases h2 : c = 63 ∧ q.ok = true
      · refine LocAt.sub h (k' := fun r => refRQComp hx { «prefix» := pre, ID := nid, SS := w, norm := lowerGo .plain w, tolower := ups .plain 0 w } r (b + w.length + 1)) ?_ (loc_RQComp hx _ _)
        intro x; simp only [refNss8141, hm, if_neg h1, if_pos h2]
      · have hk : ∀ x, refNss8141 hx pre nid (w ++ c :: x) b = bad (nssErr hx .specificString8141 q) (b + w.length) := by
          intro x; simp only [refNss8141, hm, if_neg h1, if_neg h2]
        simp only [hk] at h
        rw [bad_inj h]
        exact LocAt.leaf (at_bad (nssErr_ne (by decide) (by decide)).1 (nssErr_ne (by decide) (by decide)).2) hk

/-- The identifier, without the look-ahead. -/
def scanNid8141 (hx : Bool) (pre rest : Bytes) : Res := refNid8141 ⟨hx, false⟩ pre rest

theorem refNid8141_scan (fl : Flags) (pre rest : Bytes) : refNid8141 fl pre rest =
    if fl.chk ∧ clash rest then bad .noUrnWithinID 7 else scanNid8141 fl.hx pre rest := by
  unfold scanNid8141 refNid8141
  simp

theorem u4_len {w : Bytes} (h : steps nid8Step .start w = some .u4) : w.length = 4 := by
  have h4 : ∀ q c, nid8Step q c = some .u4 → q = .u3 := by
    intro q c; cases q <;> simp only [nid8Step] <;> (repeat' split) <;> simp
  have h3 : ∀ q c, nid8Step q c = some .u3 → q = .u2 := by
    intro q c; cases q <;> simp only [nid8Step] <;> (repeat' split) <;> simp
  have h2 : ∀ q c, nid8Step q c = some .u2 → q = .u1 := by
    intro q c; cases q <;> simp only [nid8Step] <;> (repeat' split) <;> simp
  have h1 : ∀ q c, nid8Step q c = some .u1 → q = .start := by
    intro q c; cases q <;> simp only [nid8Step] <;> (repeat' split) <;> simp
  have h0 : ∀ q c, nid8Step q c ≠ some .start := by
    intro q c; cases q <;> simp only [nid8Step] <;> (repeat' split) <;> simp
  rcases steps_snoc h with ⟨_, h⟩ | ⟨v, c, q, rfl, hv, hq⟩
  · simp at h
  rw [h4 _ _ hq] at hv
  rcases steps_snoc hv with ⟨_, h⟩ | ⟨v, c, q, rfl, hv, hq⟩
  · simp at h
  rw [h3 _ _ hq] at hv
  rcases steps_snoc hv with ⟨_, h⟩ | ⟨v, c, q, rfl, hv, hq⟩
  · simp at h
  rw [h2 _ _ hq] at hv
  rcases steps_snoc hv with ⟨_, h⟩ | ⟨v, c, q, rfl, hv, hq⟩
  · simp at h
  rw [h1 _ _ hq] at hv
  rcases steps_snoc hv with ⟨h, _⟩ | ⟨v, c, q, rfl, hv, hq⟩
  · subst h; rfl
  · exact absurd hq (h0 _ _)

theorem loc_nid8141 (hx : Bool) (pre : Bytes) : Loc (scanNid8141 hx pre) 4 := by
  intro rest e h
  rcases munch_split nid8Step .start rest with ⟨q, hm⟩ | ⟨q, w, c, t, rfl, _, hm⟩
  · simp [scanNid8141, refNid8141, hm] at h
    rw [bad_inj h]
    exact LocAt.eof (at_bad (by decide) (by decide))
  · by_cases hc : c = 58 ∧ q.canEnd = true
    · refine LocAt.sub h (k' := fun r => refNss8141 hx (if q.inf then w.take 3 else pre) w r (4 + w.length + 1)) ?_ (loc_nss8141 hx _ w _)
      intro x
      simp only [scanNid8141, refNid8141, hm, if_pos hc]; simp
    · by_cases hu : q = .u4 ∧ isAlnum c = true
      · have hk : ∀ x, scanNid8141 hx pre (w ++ c :: x) = bad .informalID8141 7 := by
          intro x
          simp only [scanNid8141, refNid8141, hm, if_neg hc, if_pos hu]; simp
        rw [hk] at h
        rw [bad_inj h]
        have hs := steps_munch (stp := nid8Step) .start (w ++ c :: t)
        rw [hm] at hs
        simp only at hs
        rw [hu.1] at hs
        exact LocAt.leaf (by rw [u4_len hs]; rfl) hk
      · have hk : ∀ x, scanNid8141 hx pre (w ++ c :: x) = bad .identifier8141 (4 + w.length) := by
          intro x
          simp only [scanNid8141, refNid8141, hm, if_neg hc, if_neg hu]; simp
        rw [hk] at h
        rw [bad_inj h]
        exact LocAt.leaf (at_bad (by decide) (by decide)) hk

/-! ## All entry points -/

theorem isUrn_drop {pre rest : Bytes} (h : IsUrn pre) : (pre ++ 58 :: rest).drop 4 = rest := by
  obtain ⟨a, b, c, rfl, _⟩ := isUrn_iff.mp h; rfl

open Classical in
/-- The result with the look-ahead, in terms of the result without it. -/
theorem chk_prefix {k k' : Bytes → Bytes → Res} {chk : Bool} (h : ∀ pre rest, k pre rest = if chk = true ∧ clash rest = true then bad .noUrnWithinID 7 else k' pre rest)
    (s : Bytes) : refPrefix s k = if (∃ pre rest, IsUrn pre ∧ s = pre ++ 58 :: rest) ∧ chk = true ∧ clash (s.drop 4) = true then bad .noUrnWithinID 7 else refPrefix s k' := by
  by_cases hp : ∃ pre rest, IsUrn pre ∧ s = pre ++ 58 :: rest
  · obtain ⟨pre, rest, h1, rfl⟩ := hp
    rw [refPrefix_urn h1, refPrefix_urn h1, h, isUrn_drop h1]
    have : ∃ pre' rest', IsUrn pre' ∧ pre ++ 58 :: rest = pre' ++ 58 :: rest' := ⟨pre, rest, h1, rfl⟩
    simp only [this, true_and]
  · rw [if_neg (fun h => hp h.1)]
    rw [refPrefix_bad (fun pre rest h1 h2 => hp ⟨pre, rest, h1, h2⟩), refPrefix_bad (fun pre rest h1 h2 => hp ⟨pre, rest, h1, h2⟩)]

/-- Errors depend only on the bytes up to the failing one, up to the look-ahead. -/
theorem chk_loc {k k' : Bytes → Bytes → Res} {chk : Bool} (h : ∀ pre rest, k pre rest = if chk = true ∧ clash rest = true then bad .noUrnWithinID 7 else k' pre rest)
    (hl : ∀ pre, IsUrn pre → Loc (k' pre) 4) {s : Bytes} {e : Err} (he : refPrefix s k = (none, some e)) :
    0 ≤ e.col ∧ ∃ n : Nat, e.at = (n : Int) ∧ n ≤ s.length ∧ (n < s.length → ∀ x, refPrefix (s.take (n + 1) ++ x) k = (none, some e) ∨
      (chk = true ∧ n < 7 ∧ refPrefix (s.take (n + 1) ++ x) k = bad .noUrnWithinID 7)) := by
  have hc := chk_prefix h
  by_cases hb : (∃ pre rest, IsUrn pre ∧ s = pre ++ 58 :: rest) ∧ chk = true ∧ clash (s.drop 4) = true
  · rw [hc, if_pos hb] at he
    rw [bad_inj he]
    obtain ⟨⟨pre, rest, h1, rfl⟩, h2, h3⟩ := hb
    obtain ⟨a, b, c, rfl, _⟩ := isUrn_iff.mp h1
    simp only [List.cons_append, List.nil_append, List.drop_succ_cons, List.drop_zero] at h3
    match rest, h3 with
    | [], h3 => simp [clash] at h3
    | [_], h3 => simp [clash] at h3
    | [_, _], h3 => simp [clash] at h3
    | [_, _, _], h3 => simp [clash] at h3
    | x0 :: x1 :: x2 :: x3 :: t, h3 =>
      refine ⟨by decide, 7, at_bad (n := 7) (by decide) (by decide), by simp, fun _ x => Or.inl ?_⟩
      have e1 : ([a, b, c] ++ 58 :: x0 :: x1 :: x2 :: x3 :: t).take (7 + 1) ++ x = [a, b, c] ++ 58 :: x0 :: x1 :: x2 :: x3 :: x := by simp
      rw [e1, hc, if_pos]
      · rfl
      · refine ⟨⟨_, _, h1, rfl⟩, h2, ?_⟩
        simpa [clash] using h3
  · rw [hc, if_neg hb] at he
    obtain ⟨h0, n, h1, h2, h3⟩ := loc_prefix hl s e he
    refine ⟨h0, n, by simpa using h1, h2, fun hn x => ?_⟩
    have h4 := h3 hn x
    simp only at h4
    rw [hc]
    split
    · rename_i hb'
      right
      refine ⟨hb'.2.1, ?_, rfl⟩
      obtain ⟨⟨pre, rest, g1, g2⟩, g3, g4⟩ := hb'
      apply Decidable.byContradiction
      intro hlt
      apply hb
      -- the first eight bytes agree
      have h8 : ∀ i, i < 8 → (s.take (n + 1) ++ x)[i]? = s[i]? := by
        intro i hi
        rw [List.getElem?_append_left (by simp; omega), List.getElem?_take]
        simp; omega
      obtain ⟨a, b, c, rfl, gg⟩ := isUrn_iff.mp g1
      have hs : s = [a, b, c] ++ 58 :: s.drop 4 := by
        apply List.ext_getElem?
        intro i
        match i with
        | 0 => rw [← h8 0 (by omega), g2]; rfl
        | 1 => rw [← h8 1 (by omega), g2]; rfl
        | 2 => rw [← h8 2 (by omega), g2]; rfl
        | 3 => rw [← h8 3 (by omega), g2]; rfl
        | i + 4 => simp; congr 1; omega
      refine ⟨⟨[a, b, c], s.drop 4, g1, hs⟩, g3, ?_⟩
      rw [g2, isUrn_drop g1] at g4
      have e0 : (s.drop 4)[0]? = rest[0]? := by
        rw [List.getElem?_drop, ← h8 4 (by omega), g2]; rfl
      have e3 : (s.drop 4)[3]? = rest[3]? := by
        rw [List.getElem?_drop, ← h8 7 (by omega), g2]; rfl
      simp only [clash, List.head?_eq_getElem?] at g4 ⊢
      rw [e0, e3]; exact g4
    · exact Or.inl h4

/-- Errors of `Parse` from any entry point in any mode. -/
theorem refFrom_err {st : Nat} {mode : ParsingMode} {s : Bytes} {e : Err} (he : refFrom st mode s = (none, some e)) :
    0 ≤ e.col ∧ ∃ n : Nat, e.at = (n : Int) ∧ n ≤ s.length ∧ (n < s.length → ∀ x, refFrom st mode (s.take (n + 1) ++ x) = (none, some e) ∨
      ((st ≠ 44 ∧ mode ≠ RFC8141Only) ∧ n < 7 ∧ refFrom st mode (s.take (n + 1) ++ x) = bad .noUrnWithinID 7)) := by
  have hf : (flagsOf mode).chk = true ↔ mode ≠ RFC8141Only := by simp [flagsOf]
  by_cases h1 : st = 1
  · have e1 : ∀ s, refFrom st mode s = ref2141 (flagsOf mode) s := by intro s; simp [refFrom, h1]
    simp only [e1] at he ⊢
    obtain ⟨g0, n, g1, g2, g3⟩ := chk_loc (refNid2141_scan (flagsOf mode)) (fun pre _ => loc_nid2141 _ pre) he
    refine ⟨g0, n, g1, g2, fun hn x => (g3 hn x).imp id (fun g => ⟨⟨by omega, hf.mp g.1⟩, g.2⟩)⟩
  · by_cases h2 : st = 44
    · have e1 : ∀ s, refFrom st mode s = refScim (flagsOf mode) s := by intro s; simp [refFrom, h2]
      simp only [e1] at he ⊢
      obtain ⟨g0, n, g1, g2, g3⟩ := chk_loc (chk := false) (k' := refScimNs (flagsOf mode).hx) (by simp) (fun pre _ => loc_scimNs _ pre) he
      refine ⟨g0, n, g1, g2, fun hn x => (g3 hn x).imp id (fun g => absurd g.1 (by simp))⟩
    · by_cases h3 : st = 83
      · have e1 : ∀ s, refFrom st mode s = ref8141 (flagsOf mode) s := by intro s; simp [refFrom, h3]
        simp only [e1] at he ⊢
        obtain ⟨g0, n, g1, g2, g3⟩ := chk_loc (refNid8141_scan (flagsOf mode)) (fun pre _ => loc_nid8141 _ pre) he
        refine ⟨g0, n, g1, g2, fun hn x => (g3 hn x).imp id (fun g => ⟨⟨by omega, hf.mp g.1⟩, g.2⟩)⟩
      · simp [refFrom, h1, h2, h3] at he

end Urn
