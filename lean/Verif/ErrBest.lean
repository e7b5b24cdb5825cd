import Verif.ErrAux
/-!
# Errors of the reference parser: the longest viable prefix
-/
set_option autoImplicit false
namespace Urn
open Spec

/-- Kinds of errors about r- and q-components. -/
def CompKind (k : ErrKind) : Prop :=
  k = .malformedRComp8141 ∨ k = .rComponentStart8141 ∨ k = .malformedQComp8141 ∨ k = .qComponentStart8141

/-- `n` bytes of `rest` can be completed to something accepted, no more can, and this is where the
error is reported (one or two bytes earlier than reported for a component starting with `?`). -/
def Best (k : Bytes → Res) (b : Nat) (rest : Bytes) (e : Err) : Prop :=
  ∃ n, n ≤ rest.length ∧ (∃ t u, k (rest.take n ++ t) = (some u, none)) ∧
    (n < rest.length → ∀ x, (k (rest.take (n + 1) ++ x)).1 = none) ∧
    (e.at = ((b + n : Nat) : Int) ∨
      (CompKind e.kind ∧ rest[n]? = some 63 ∧ (e.at = ((b + n + 1 : Nat) : Int) ∨ e.at = ((b + n + 2 : Nat) : Int))))

/-- All errors of `k` are reported at the end of the longest viable prefix. -/
def AllBest (k : Bytes → Res) (b : Nat) : Prop := ∀ rest e, k rest = (none, some e) → Best k b rest e

/-- Something is accepted by `k` that starts with `w`. -/
def Via (k : Bytes → Res) (w : Bytes) : Prop := ∃ t u, k (w ++ t) = (some u, none)

theorem Best.eof {k : Bytes → Res} {b : Nat} {rest : Bytes} {e : Err} (h : e.at = ((b + rest.length : Nat) : Int)) (hv : Via k rest) : Best k b rest e :=
  ⟨rest.length, Nat.le_refl _, by rw [List.take_length]; exact hv, fun h => absurd h (Nat.lt_irrefl _), Or.inl h⟩

theorem Best.leaf {k : Bytes → Res} {b : Nat} {w : Bytes} {c : UInt8} {t : Bytes} {e : Err}
    (h : e.at = ((b + w.length : Nat) : Int)) (hk : ∀ x, (k (w ++ c :: x)).1 = none) (hv : Via k w) : Best k b (w ++ c :: t) e := by
  refine ⟨w.length, by simp, by rw [List.take_left]; exact hv, fun _ x => ?_, Or.inl h⟩
  rw [take_app]; exact hk x

theorem take_app_sub (w : Bytes) (c : UInt8) (t : Bytes) (n : Nat) : (w ++ c :: t).take (w.length + 1 + n) = w ++ c :: t.take n := by
  rw [List.take_append, List.take_of_length_le (by omega), show w.length + 1 + n - w.length = n + 1 by omega]; rfl

theorem Best.sub {k k' : Bytes → Res} {b : Nat} {w : Bytes} {c : UInt8} {t : Bytes} {e : Err}
    (h : k (w ++ c :: t) = (none, some e)) (hk : ∀ x, k (w ++ c :: x) = k' x) (hl : AllBest k' (b + w.length + 1)) :
    Best k b (w ++ c :: t) e := by
  rw [hk] at h
  obtain ⟨n, h1, ⟨x, u, h2⟩, h3, h4⟩ := hl t e h
  refine ⟨w.length + 1 + n, by simp; omega, ⟨x, u, ?_⟩, fun hn x => ?_, ?_⟩
  · rw [take_app_sub, List.append_assoc, List.cons_append, hk]; exact h2
  · rw [show w.length + 1 + n + 1 = w.length + 1 + (n + 1) by omega, take_app_sub, List.append_assoc, List.cons_append, hk]
    exact h3 (by simp at hn; omega) x
  · have e1 : (w ++ c :: t)[w.length + 1 + n]? = t[n]? := by
      rw [List.getElem?_append_right (by omega), show w.length + 1 + n - w.length = n + 1 by omega]; simp
    rw [e1]
    rcases h4 with h4 | ⟨h4, h5, h6⟩
    · left; rw [h4]; congr 1; omega
    · right; refine ⟨h4, h5, ?_⟩
      rcases h6 with h6 | h6
      · left; rw [h6]; congr 1; omega
      · right; rw [h6]; congr 1; omega

/-- The accepted completions of `k'` are completions of `k` after `w c`. -/
theorem Via.sub {k k' : Bytes → Res} {w v : Bytes} {c : UInt8} (hk : ∀ x, k (w ++ c :: x) = k' x) (h : Via k' v) : Via k (w ++ c :: v) := by
  obtain ⟨t, u, h⟩ := h
  exact ⟨t, u, by rw [List.append_assoc, List.cons_append, hk]; exact h⟩

theorem Via.of {k : Bytes → Res} {w : Bytes} (t : Bytes) (h : Via k (w ++ t)) : Via k w := by
  obtain ⟨t', u, h⟩ := h
  exact ⟨t ++ t', u, by rw [← List.append_assoc]; exact h⟩

theorem Via.ok {k : Bytes → Res} {w : Bytes} {u : URN} (h : k w = (some u, none)) : Via k w := ⟨[], u, by rw [List.append_nil]; exact h⟩

theorem munch_steps {σ : Type} {stp : σ → UInt8 → Option σ} {q q' : σ} {l w r : Bytes} (h : munch stp q l = (q', w, r)) : steps stp q w = some q' := by
  have := steps_munch (stp := stp) q l
  rw [h] at this; exact this

/-! ## Completing escapes -/

/-- Bytes that complete an escape. -/
def nssTail : Nss → Bytes
  | .start => lit "x"
  | .plain | .ah => []
  | .h1 => lit "aa"
  | .h2 => lit "a"

theorem nss_via {first cls : UInt8 → Bool} (hf : first 120 = true) {w : Bytes} {q : Nss} (h : steps (nssStep first cls) .start w = some q) :
    ∃ q', steps (nssStep first cls) .start (w ++ nssTail q) = some q' ∧ q'.ok = true := by
  rw [steps_append, h]
  cases q
  · exact ⟨.plain, by simp [nssTail, lit, steps, nssStep, hf], rfl⟩
  · exact ⟨.plain, rfl, rfl⟩
  · exact ⟨.ah, rfl, rfl⟩
  · exact ⟨.ah, rfl, rfl⟩
  · exact ⟨.ah, rfl, rfl⟩

theorem nssTail_colon (q : Nss) : 58 ∉ nssTail q := by cases q <;> decide

/-! ## RFC 2141 -/

theorem nss2141_via {w : Bytes} {q : Nss} (h : steps (nssStep isSss isSss) .start w = some q) : Nss2141 (w ++ nssTail q) :=
  nss2141_iff.mpr (nss_via (by decide) h)

theorem nid2_via {w : Bytes} {q : N2} (h : steps nid2Step .start w = some q) : Nid2141 (w ++ List.replicate (4 - w.length) 120) := by
  obtain ⟨h1, h2, h3, _, _⟩ := nid2_steps h
  have hl : (w ++ List.replicate (4 - w.length) (120 : UInt8)).length = w.length + (4 - w.length) := by simp
  refine ⟨?_, by omega, ?_, ?_, ?_⟩
  · intro h; rw [h] at hl; simp at hl; omega
  · intro c hc
    rcases List.mem_append.mp hc with hc | hc
    · exact h1 c hc
    · rw [(List.mem_replicate.mp hc).2]; decide
  · cases w with
    | nil => decide
    | cons c t => simpa using h3
  · intro h; have := h.length; omega

theorem clash_nid {nid t : Bytes} (h : Nid2141 nid) (hl : 4 ≤ nid.length) : clash (nid ++ t) = false := by
  have : (nid ++ t)[3]? ≠ some 58 := by
    rw [List.getElem?_append_left (by omega)]
    intro h58
    exact h.noColon (List.mem_of_getElem? h58)
  simp [clash, this]

theorem clash_nss {nid w c t : Bytes} (hn : Nid2141 nid) (h : clash (nid ++ 58 :: (w ++ c)) = false) (ht : 58 ∉ t) : clash (nid ++ 58 :: (w ++ t)) = false := by
  cases nid with
  | nil => exact absurd rfl hn.nonempty
  | cons a nid =>
    by_cases hl : 3 < (a :: nid ++ 58 :: w).length
    · have e1 : ∀ y : Bytes, (a :: nid ++ 58 :: (w ++ y))[3]? = (a :: nid ++ 58 :: w)[3]? := by
        intro y
        rw [show a :: nid ++ 58 :: (w ++ y) = (a :: nid ++ 58 :: w) ++ y by simp, List.getElem?_append_left hl]
      simp only [clash, e1] at h ⊢
      simpa using h
    · have : (a :: nid ++ 58 :: (w ++ t))[3]? ≠ some 58 := by
        rw [show a :: nid ++ 58 :: (w ++ t) = (a :: nid ++ 58 :: w) ++ t by simp, List.getElem?_append_right (by omega)]
        intro h58
        exact ht (List.mem_of_getElem? h58)
      rw [clash, Bool.and_eq_false_iff]
      exact Or.inr (beq_eq_false_iff_ne.mpr this)

/-- Everything scanned before a rejection other than by the look-ahead can be completed. -/
theorem via_nid2141 {pre rest : Bytes} {e : Err} (h : refNid2141 ⟨true, true⟩ pre rest = (none, some e)) (he : e.kind ≠ .noUrnWithinID) :
    ∃ n, n ≤ rest.length ∧ e.col = ((4 + n : Nat) : Int) ∧
      ∃ t nid nss, rest.take n ++ t = nid ++ 58 :: nss ∧ Nid2141 nid ∧ Nss2141 nss ∧ clash (rest.take n ++ t) = false := by
  rw [refNid2141_scan] at h
  split at h
  · rw [bad_inj h] at he; simp at he
  rename_i hcl
  simp only [true_and, Bool.not_eq_true] at hcl
  have hnid : ∀ {w q}, steps nid2Step .start w = some q → ∃ t nid nss, w ++ t = nid ++ 58 :: nss ∧ Nid2141 nid ∧ Nss2141 nss ∧ clash (w ++ t) = false := by
    intro w q hs
    refine ⟨List.replicate (4 - w.length) 120 ++ 58 :: lit "x", _, lit "x", by rw [← List.append_assoc], nid2_via hs, ?_, ?_⟩
    · exact nss2141_via (w := []) (q := .start) rfl
    · rw [← List.append_assoc]
      exact clash_nid (nid2_via hs) (by simp; omega)
  rcases munch_split nid2Step .start rest with ⟨q, hm⟩ | ⟨q, w, c, t, rfl, _, hm⟩
  · simp [scanNid2141, refNid2141, hm] at h
    rw [bad_inj h]
    exact ⟨rest.length, Nat.le_refl _, rfl, by rw [List.take_length]; exact hnid (munch_steps hm)⟩
  · by_cases hc : c = 58 ∧ q.canEnd = true
    · have hw : Nid2141 w := nid2_iff.mp ⟨q, munch_steps (hm []), hc.2⟩
      have hk : scanNid2141 true pre (w ++ c :: t) = refNss2141 true pre w t (4 + w.length + 1) := by
        simp only [scanNid2141, refNid2141, hm, if_pos hc]; simp
      rw [hk] at h
      rw [hc.1] at hcl ⊢
      have hnss : ∀ {v y q'}, t = v ++ y → steps (nssStep isSss isSss) .start v = some q' →
          ∃ x nid nss, w ++ 58 :: v ++ x = nid ++ 58 :: nss ∧ Nid2141 nid ∧ Nss2141 nss ∧ clash (w ++ 58 :: v ++ x) = false := by
        intro v y q' hv hs
        refine ⟨nssTail q', w, v ++ nssTail q', by simp, hw, nss2141_via hs, ?_⟩
        rw [hv] at hcl
        rw [List.append_assoc, List.cons_append]
        exact clash_nss hw hcl (nssTail_colon q')
      rcases munch_split (nssStep isSss isSss) .start t with ⟨q', hm'⟩ | ⟨q', v, d, y, rfl, _, hm'⟩
      · simp only [refNss2141, hm'] at h
        split at h
        · simp at h
        · rw [bad_inj h]
          refine ⟨(w ++ 58 :: t).length, Nat.le_refl _, by simp; omega, ?_⟩
          rw [List.take_length]
          exact hnss (y := []) (by simp) (munch_steps hm')
      · simp only [refNss2141, hm'] at h
        simp at h
        rw [bad_inj h]
        refine ⟨w.length + 1 + v.length, by simp; omega, by simp; omega, ?_⟩
        rw [take_app_sub, List.take_left]
        exact hnss rfl (munch_steps (hm' []))
    · have hk : scanNid2141 true pre (w ++ c :: t) = bad .identifier (4 + w.length) := by
        simp only [scanNid2141, refNid2141, hm, if_neg hc]; simp
      rw [hk] at h
      rw [bad_inj h]
      exact ⟨w.length, by simp, rfl, by rw [List.take_left]; exact hnid (munch_steps (hm []))⟩

/-! ## Prefix -/

/-- A partial prefix can be completed. -/
theorem via_urn {w : Bytes} {q : Nat} (h : steps (litStep urnPat) 0 w = some q) : ∃ p, w.length = q ∧
    ((q < 4 ∧ ∃ v, w ++ v = p ++ [58] ∧ IsUrn p) ∨ (q = 4 ∧ w = p ++ [58] ∧ IsUrn p)) := by
  simp only [isUrn_iff]
  have hq : ∀ {v : Bytes} {i j : Nat}, steps (litStep urnPat) i v = some j → j = i + v.length := by
    intro v i j h
    have := lit_len urnPat v i
    rw [munch_eq_nil h] at this
    exact this
  have hl := hq h
  match w with
  | [] => exact ⟨lit "urn", by omega, Or.inl ⟨by rw [hl]; decide, lit "urn:", rfl, 117, 114, 110, rfl, by decide⟩⟩
  | [a] =>
    have h1 : lower a = 117 := by
      simp [steps, litStep, urnPat] at h
      apply Decidable.byContradiction; intro hn; simp [hn] at h
    exact ⟨[a, 114, 110], by simp at hl ⊢; omega, Or.inl ⟨by rw [hl]; simp, lit "rn:", rfl, a, 114, 110, rfl, h1, by decide⟩⟩
  | [a, b] =>
    have h1 : lower a = 117 ∧ lower b = 114 := by
      simp [steps, litStep, urnPat] at h
      by_cases ha : lower a = 117 <;> by_cases hb : lower b = 114 <;> simp [ha, hb] at h ⊢
    exact ⟨[a, b, 110], by simp at hl ⊢; omega, Or.inl ⟨by rw [hl]; simp, lit "n:", rfl, a, b, 110, rfl, h1.1, h1.2, by decide⟩⟩
  | [a, b, c] =>
    have h1 : lower a = 117 ∧ lower b = 114 ∧ lower c = 110 := by
      simp [steps, litStep, urnPat] at h
      by_cases ha : lower a = 117 <;> by_cases hb : lower b = 114 <;> by_cases hc : lower c = 110 <;> simp [ha, hb, hc] at h ⊢
    exact ⟨[a, b, c], by simp at hl ⊢; omega, Or.inl ⟨by rw [hl]; simp, lit ":", rfl, a, b, c, rfl, h1⟩⟩
  | [a, b, c, d] =>
    have h1 : lower a = 117 ∧ lower b = 114 ∧ lower c = 110 ∧ d = 58 := by
      simp [steps, litStep, urnPat] at h
      by_cases ha : lower a = 117 <;> by_cases hb : lower b = 114 <;> by_cases hc : lower c = 110 <;> by_cases hd : d = 58 <;> simp [ha, hb, hc, hd] at h ⊢
    exact ⟨[a, b, c], by simp at hl ⊢; omega, Or.inr ⟨by rw [hl]; simp, by rw [h1.2.2.2]; rfl, a, b, c, rfl, h1.1, h1.2.1, h1.2.2.1⟩⟩
  | a :: b :: c :: d :: x :: t =>
    exfalso
    have := lit_le urnPat (a :: b :: c :: d :: x :: t) 0 (by decide)
    rw [munch_eq_nil h] at this
    simp only [List.length_cons] at hl
    have h4 : urnPat.length = 4 := rfl
    simp only at this
    omega

theorem best_prefix {k : Bytes → Bytes → Res} (h : ∀ pre, IsUrn pre → AllBest (k pre) 4) (hv : ∀ pre, IsUrn pre → Via (k pre) []) :
    AllBest (fun s => refPrefix s k) 0 := by
  intro s e hs
  by_cases hp : ∃ pre rest, IsUrn pre ∧ s = pre ++ 58 :: rest
  · obtain ⟨pre, rest, h1, rfl⟩ := hp
    refine Best.sub hs (k' := k pre) (fun x => refPrefix_urn h1) ?_
    rw [h1.length]; exact h pre h1
  · have hb := refPrefix_bad (s := s) (fun pre rest h1 h2 => hp ⟨pre, rest, h1, h2⟩) k
    simp only [hb] at hs
    have hvia : ∀ {w q}, steps (litStep urnPat) 0 w = some q → Via (fun s => refPrefix s k) w := by
      intro w q hst
      obtain ⟨p, _, h1⟩ := via_urn hst
      have h2 : ∃ v, w ++ v = p ++ [58] ∧ IsUrn p := by
        rcases h1 with ⟨_, v, h1, h2⟩ | ⟨_, h1, h2⟩
        · exact ⟨v, h1, h2⟩
        · exact ⟨[], by simpa using h1, h2⟩
      obtain ⟨v, h3, h4⟩ := h2
      refine Via.of v ?_
      rw [h3]
      exact Via.sub (k' := k p) (fun x => refPrefix_urn h4) (hv p h4)
    have hl := lit_len urnPat s 0
    rcases munch_split (litStep urnPat) 0 s with ⟨q, hm⟩ | ⟨q, w, c, t, rfl, hq, hm⟩
    · rw [bad_inj hs]
      rw [hm] at hl ⊢
      simp only [Nat.zero_add] at hl
      subst hl
      exact Best.eof (by rw [at_bad (by decide) (by decide)]; simp) (hvia (munch_steps hm))
    · rw [bad_inj hs]
      rw [hm] at hl ⊢
      simp only [Nat.zero_add] at hl
      subst hl
      refine Best.leaf (by rw [at_bad (by decide) (by decide)]; simp) (fun x => ?_) (hvia (munch_steps (hm [])))
      simp only [refPrefix, hm]
      rw [if_neg]
      · rfl
      · intro h4
        rcases refPrefix_cases (w ++ c :: t) with ⟨pre, rest, h6, h7⟩ | ⟨n, _, h6, h7⟩
        · exact hp ⟨pre, rest, h6, h7⟩
        · have h8 := h7 (fun _ _ => (none, none))
          simp only [refPrefix, hm t, if_pos h4] at h8
          simp [bad] at h8

/-! ## SCIM -/

theorem via_scimOther {hx : Bool} {pre kw : Bytes} {ty : SchemaType} {name : Bytes} {b : Nat} {w : Bytes} {q : Nss}
    (h : steps (nssStep isSss isSss) .start w = some q) : Via (fun r => refScimOther hx pre kw ty name r b) w := by
  refine Via.of (nssTail q) ?_
  obtain ⟨q', h1, h2⟩ := nss_via (first := isSss) (cls := isSss) (by decide) h
  exact ⟨[], _, by rw [List.append_nil]; simp only [refScimOther, munch_eq_nil h1, h2, if_true]; rfl⟩

theorem best_scimOther (hx : Bool) (pre kw : Bytes) (ty : SchemaType) (name : Bytes) (b : Nat) :
    AllBest (fun r => refScimOther hx pre kw ty name r b) b := by
  intro rest e h
  rcases munch_split (nssStep isSss isSss) .start rest with ⟨q, hm⟩ | ⟨q, w, c, t, rfl, _, hm⟩
  · have hv := via_scimOther (hx := hx) (pre := pre) (kw := kw) (ty := ty) (name := name) (b := b) (munch_steps hm)
    simp only [refScimOther, hm, if_true] at h
    split at h
    · simp at h
    · split at h
      · rw [bad_inj h]
        exact Best.eof (at_bad (by decide) (by decide)) hv
      · simp at h; subst h
        exact Best.eof (by simp [Err.at]) hv
  · have hk : ∀ x, refScimOther hx pre kw ty name (w ++ c :: x) b = bad (nssErr hx .scimOther q) (b + w.length) := by
      intro x; simp [refScimOther, hm]
    simp only [hk] at h
    rw [bad_inj h]
    exact Best.leaf (at_bad (nssErr_ne (by decide) (by decide)).1 (nssErr_ne (by decide) (by decide)).2) (fun x => by simp only [hk]; rfl)
      (via_scimOther (munch_steps (hm [])))

theorem via_scimName {hx : Bool} {pre kw : Bytes} {ty : SchemaType} {b : Nat} {w : Bytes} {q : Bool}
    (h : steps nameStep false w = some q) : Via (fun r => refScimName hx pre kw ty r b) w := by
  refine Via.of (lit "x") ?_
  have h1 : steps nameStep false (w ++ lit "x") = some true := by rw [steps_append, h]; rfl
  exact ⟨[], _, by rw [List.append_nil]; simp only [refScimName, munch_eq_nil h1, if_true]; rfl⟩

theorem best_scimName (hx : Bool) (pre kw : Bytes) (ty : SchemaType) (b : Nat) :
    AllBest (fun r => refScimName hx pre kw ty r b) b := by
  intro rest e h
  rcases munch_split nameStep false rest with ⟨q, hm⟩ | ⟨q, w, c, t, rfl, _, hm⟩
  · cases q with
    | true => simp [refScimName, hm] at h
    | false =>
      have hs := munch_steps hm
      obtain ⟨_, h3⟩ := name_steps.mp hs
      simp at h3
      simp only [refScimName, hm] at h
      rw [bad_inj h, h3]
      exact Best.eof (at_bad (by decide) (by decide)) (via_scimName (w := []) (q := false) rfl)
  · have hs := munch_steps (hm [])
    cases q with
    | true =>
      by_cases hc : c = 58
      · refine Best.sub h (k' := fun r => refScimOther hx pre kw ty w r (b + w.length + 1)) ?_ (best_scimOther hx pre kw ty w _)
        intro x
        simp only [refScimName, hm, if_pos hc]; simp
      · have hk : ∀ x, refScimName hx pre kw ty (w ++ c :: x) b = bad .scimName (b + w.length) := by
          intro x; simp [refScimName, hm, hc]
        simp only [hk] at h
        rw [bad_inj h]
        exact Best.leaf (at_bad (by decide) (by decide)) (fun x => by simp only [hk]; rfl) (via_scimName hs)
    | false =>
      obtain ⟨_, h3⟩ := name_steps.mp hs
      simp at h3
      subst h3
      have hk : ∀ x, refScimName hx pre kw ty ([] ++ c :: x) b = bad .scimName b := by
        intro x; simp only [refScimName, hm]; rfl
      simp only [hk] at h
      rw [bad_inj h]
      exact Best.leaf (at_bad (by decide) (by decide)) (fun x => by simp only [hk]; rfl) (via_scimName hs)

/-- A fixed word, then `k`. -/
theorem best_lit {word : Bytes} {ek : ErrKind} {b : Nat} {k k' : Bytes → Res} (he : ek ≠ .informalID8141 ∧ ek ≠ .scimOtherIncomplete)
    (hw : word ≠ [])
    (hf : ∀ r, k r = if (munch (litStep (litPat word)) 0 r).1 = word.length then k' (munch (litStep (litPat word)) 0 r).2.2
      else bad ek (b + (munch (litStep (litPat word)) 0 r).1)) (hk' : AllBest k' (b + word.length)) (hv : Via k' []) :
    AllBest k b ∧ ∀ n, Via k (word.take n) := by
  have hvia : ∀ n, Via k (word.take n) := by
    intro n
    refine Via.of (word.drop n) ?_
    rw [List.take_append_drop]
    obtain ⟨t, u, h⟩ := hv
    exact ⟨t, u, by rw [hf, lit_munch]; simpa using h⟩
  refine ⟨?_, hvia⟩
  intro rest e h
  by_cases hl : (munch (litStep (litPat word)) 0 rest).1 = word.length
  · have hr := lit_full hl
    generalize (munch (litStep (litPat word)) 0 rest).2.2 = r at hr
    subst hr
    obtain ⟨w, c, rfl⟩ : ∃ w c, word = w ++ [c] := ⟨word.dropLast, word.getLast hw, (List.dropLast_concat_getLast hw).symm⟩
    have hk : ∀ x, k (w ++ c :: x) = k' x := by
      intro x
      have e1 : w ++ c :: x = (w ++ [c]) ++ x := by simp
      rw [hf, e1, lit_munch]; simp
    rw [show (w ++ [c]) ++ r = w ++ c :: r by simp] at h ⊢
    exact Best.sub h hk (by have : b + w.length + 1 = b + (w ++ [c]).length := by simp; omega
                            rw [this]; exact hk')
  · have h' := h
    rw [hf, if_neg hl] at h'
    rw [bad_inj h']
    have hlen := lit_len (litPat word) rest 0
    have hread := lit_read word rest
    rw [Nat.zero_add] at hlen
    rcases munch_split (litStep (litPat word)) 0 rest with ⟨q, hm⟩ | ⟨q, w, c, t, rfl, hq, hm⟩
    · rw [hm] at hlen hread ⊢
      simp only at hlen hread ⊢
      rw [hlen]
      exact Best.eof (at_bad he.1 he.2) (by rw [hread]; exact hvia _)
    · rw [hm] at hlen hl hread ⊢
      simp only at hlen hl hread ⊢
      subst hlen
      refine Best.leaf (at_bad he.1 he.2) (fun x => ?_) (by rw [hread]; exact hvia _)
      rw [hf, hm, if_neg hl]; rfl

theorem best_kw (hx : Bool) (pre kw : Bytes) (ty : SchemaType) :
    AllBest (fun rest =>
        let y := munch (litStep (litPat (kw ++ lit ":"))) 0 rest
        if y.1 = kw.length + 1 then refScimName hx pre kw ty y.2.2 (21 + kw.length + 1)
        else bad .scimType (21 + y.1)) 21 ∧ ∀ n, Via (fun rest =>
        let y := munch (litStep (litPat (kw ++ lit ":"))) 0 rest
        if y.1 = kw.length + 1 then refScimName hx pre kw ty y.2.2 (21 + kw.length + 1)
        else bad .scimType (21 + y.1)) ((kw ++ lit ":").take n) := by
  refine best_lit (word := kw ++ lit ":") (ek := .scimType) (k' := fun r => refScimName hx pre kw ty r (21 + kw.length + 1)) (by decide) (by simp [lit]) ?_ ?_ ?_
  · intro r; simp only [List.length_append]; rfl
  · have : 21 + (kw ++ lit ":").length = 21 + kw.length + 1 := by simp; rfl
    rw [this]; exact best_scimName hx pre kw ty _
  · exact via_scimName (w := []) (q := false) rfl

theorem via_scimType (hx : Bool) (pre : Bytes) : Via (refScimType hx pre) [] := ⟨lit "api:x", _, rfl⟩

theorem best_scimType (hx : Bool) (pre : Bytes) : AllBest (refScimType hx pre) 21 := by
  intro rest e h
  cases rest with
  | nil =>
    simp [refScimType] at h
    rw [bad_inj h]
    exact Best.eof (at_bad (by decide) (by decide)) (via_scimType hx pre)
  | cons c t =>
    cases hk : kwOf c with
    | none =>
      have hr : ∀ x, refScimType hx pre ([] ++ c :: x) = bad .scimType 21 := by
        intro x; simp [refScimType, hk]
      rw [show c :: t = [] ++ c :: t from rfl, hr] at h
      rw [bad_inj h]
      exact Best.leaf (w := []) (at_bad (by decide) (by decide)) (fun x => by rw [hr]; rfl) (via_scimType hx pre)
    | some kt =>
      obtain ⟨kw, ty⟩ := kt
      obtain ⟨hl, _⟩ := best_kw hx pre kw ty
      have hr : ∀ x, refScimType hx pre (c :: x) = (fun rest =>
        let y := munch (litStep (litPat (kw ++ lit ":"))) 0 rest
        if y.1 = kw.length + 1 then refScimName hx pre kw ty y.2.2 (21 + kw.length + 1)
        else bad .scimType (21 + y.1)) (c :: x) := by
        intro x; simp only [refScimType, List.head?_cons, Option.bind_some, hk]
      generalize (fun rest =>
        let y := munch (litStep (litPat (kw ++ lit ":"))) 0 rest
        if y.1 = kw.length + 1 then refScimName hx pre kw ty y.2.2 (21 + kw.length + 1)
        else bad .scimType (21 + y.1)) = k2 at hl hr
      rw [hr] at h
      obtain ⟨n, h1, h2, h3, h4⟩ := hl _ _ h
      refine ⟨n, h1, ?_, fun hn x => ?_, h4⟩
      · cases n with
        | zero => exact via_scimType hx pre
        | succ n =>
          obtain ⟨x, u, h2⟩ := h2
          refine ⟨x, u, ?_⟩
          simp only [List.take_succ_cons, List.cons_append] at h2 ⊢
          rw [hr]; exact h2
      · have := h3 hn x
        simp only [List.take_succ_cons, List.cons_append] at this ⊢
        rw [hr]; exact this

theorem best_scimNs (hx : Bool) (pre : Bytes) : AllBest (refScimNs hx pre) 4 ∧ ∀ n, Via (refScimNs hx pre) ((lit "ietf:params:scim:").take n) := by
  refine best_lit (word := lit "ietf:params:scim:") (ek := .scimNamespace) (k' := refScimType hx pre) (by decide) (by decide) ?_ ?_ ?_
  · intro r; rfl
  · exact best_scimType hx pre
  · exact via_scimType hx pre

/-! ## RFC 8141 -/

theorem via_F {hx : Bool} {o : URN} {b : Nat} {w : Bytes} {q : Nss}
    (h : steps (nssStep isPcharSlashQ isPcharSlashQ) .start w = some q) : Via (fun r => refF hx o r b) w := by
  refine Via.of (nssTail q) ?_
  obtain ⟨q', h1, h2⟩ := nss_via (first := isPcharSlashQ) (cls := isPcharSlashQ) (by decide) h
  exact ⟨[], _, by rw [List.append_nil]; simp only [refF, munch_eq_nil h1, h2, or_true, and_self, if_true]; rfl⟩

theorem best_F (hx : Bool) (o : URN) (b : Nat) : AllBest (fun r => refF hx o r b) b := by
  intro rest e h
  rcases munch_split (nssStep isPcharSlashQ isPcharSlashQ) .start rest with ⟨q, hm⟩ | ⟨q, w, c, t, rfl, _, hm⟩
  · have hv := via_F (hx := hx) (o := o) (b := b) (munch_steps hm)
    simp only [refF, hm] at h
    split at h
    · simp at h
    · split at h
      · rw [bad_inj h]
        exact Best.eof (at_bad (by decide) (by decide)) hv
      · simp at h
  · have hk : ∀ x, refF hx o (w ++ c :: x) b = if hx = true ∧ q ≠ .start ∧ q ≠ .plain then bad .hex (b + w.length) else (none, none) := by
      intro x; simp [refF, hm]
    by_cases hq : hx = true ∧ q ≠ .start ∧ q ≠ .plain
    · simp only [hk, if_pos hq] at h
      rw [bad_inj h]
      exact Best.leaf (at_bad (by decide) (by decide)) (fun x => by simp only [hk, if_pos hq]; rfl) (via_F (munch_steps (hm [])))
    · simp only [hk, if_neg hq] at h
      simp at h

theorem QQ_err {rest : Bytes} {b : Nat} {e : Err} (h : refQQ rest b = (none, some e)) :
    CompKind e.kind ∧ (e.at = ((b : Nat) : Int) ∨ e.at = ((b + 1 : Nat) : Int)) := by
  simp only [refQQ] at h
  (repeat' split at h) <;> rw [bad_inj h] <;> simp [CompKind, Err.at]

theorem RQ_err {rest : Bytes} {b : Nat} {e : Err} (h : refRQ rest b = (none, some e)) :
    CompKind e.kind ∧ (e.at = ((b : Nat) : Int) ∨ e.at = ((b + 1 : Nat) : Int)) := by
  simp only [refRQ] at h
  (repeat' split at h) <;> rw [bad_inj h] <;> simp [CompKind, Err.at]

/-- Bytes that complete a q-component. -/
def qTail : Q → Bytes
  | .first | .firstR => lit "x"
  | .plain | .ah | .qm => []
  | .h1 | .fh1 => lit "aa"
  | .h2 | .fh2 => lit "a"
  | .qe => lit "/"

theorem via_Q {hx : Bool} {o : URN} {q0 : Q} {b : Nat} {w : Bytes} {q : Q} (h : steps qStep q0 w = some q) : Via (fun r => refQ hx o q0 r b) w := by
  refine Via.of (qTail q) ?_
  have h1 : ∃ q', steps qStep q0 (w ++ qTail q) = some q' ∧ q'.canEnd = true := by
    rw [steps_append, h]
    cases q <;> first | exact ⟨.plain, rfl, rfl⟩ | exact ⟨.ah, rfl, rfl⟩ | exact ⟨.qm, rfl, rfl⟩
  obtain ⟨q', h1, h2⟩ := h1
  exact ⟨[], _, by rw [List.append_nil]; simp only [refQ, munch_eq_nil h1, h2, if_true]; rfl⟩

theorem best_Q (hx : Bool) (o : URN) (q0 : Q) (b : Nat) : AllBest (fun r => refQ hx o q0 r b) b := by
  intro rest e h
  rcases munch_split qStep q0 rest with ⟨q, hm⟩ | ⟨q, w, c, t, rfl, _, hm⟩
  · have hv := via_Q (hx := hx) (o := o) (b := b) (munch_steps hm)
    simp only [refQ, hm] at h
    split at h
    · simp at h
    · split at h
      · rw [bad_inj h]
        exact Best.eof (at_bad (by decide) (by decide)) hv
      · rw [bad_inj h]
        exact Best.eof (at_bad (qErr_ne hx q).1 (qErr_ne hx q).2) hv
  · have hv := via_Q (hx := hx) (o := o) (b := b) (munch_steps (hm []))
    by_cases h1 : c = 35 ∧ q.canEnd = true
    · refine Best.sub h (k' := fun r => refF hx { o with qComponent := w, qStart := true, tolower := o.tolower ++ ups .plain 0 w } r (b + w.length + 1)) ?_ (best_F hx _ _)
      intro x
      simp only [refQ, hm, if_pos h1]
    · by_cases h2 : q = .first ∧ c = 63
      · have hw : w = [] := by
          have hs := munch_steps (hm [])
          rw [h2.1] at hs
          rcases steps_snoc hs with ⟨h, _⟩ | ⟨v, c', q1, _, _, hq⟩
          · exact h
          · exfalso
            have : ∀ q1 : Q, ∀ c', qStep q1 c' ≠ some .first := by
              intro q1 c'; cases q1 <;> simp only [qStep] <;> (repeat' split) <;> simp
            exact this _ _ hq
        subst hw
        have hk : ∀ x, refQ hx o q0 ([] ++ c :: x) b = refQQ x (b + 1) := by
          intro x
          simp only [refQ, hm, if_neg h1, if_pos h2]
        simp only [hk] at h
        obtain ⟨g1, g2⟩ := QQ_err h
        refine ⟨0, by simp, hv, fun _ x => ?_, Or.inr ⟨g1, by rw [h2.2]; rfl, g2⟩⟩
        obtain ⟨e', he'⟩ := refQQ_bad x (b + 1)
        have := hk x
        simp only [List.nil_append] at this
        simp only [List.nil_append, Nat.zero_add, List.take_succ_cons, List.take_zero, List.cons_append, this, he']
      · by_cases h3 : q = .qe ∧ startsAgain c = true
        · have hk : ∀ x, refQ hx o q0 (w ++ c :: x) b = bad .qComponentStart8141 (b + w.length) := by
            intro x; simp only [refQ, hm, if_neg h1, if_neg h2, if_pos h3]
          simp only [hk] at h
          rw [bad_inj h]
          exact Best.leaf (at_bad (by decide) (by decide)) (fun x => by simp only [hk]; rfl) hv
        · have hk : ∀ x, refQ hx o q0 (w ++ c :: x) b = bad (qErr hx q) (b + w.length) := by
            intro x; simp only [refQ, hm, if_neg h1, if_neg h2, if_neg h3]
          simp only [hk] at h
          rw [bad_inj h]
          exact Best.leaf (at_bad (qErr_ne hx q).1 (qErr_ne hx q).2) (fun x => by simp only [hk]; rfl) hv

/-- Bytes that complete an r-component. -/
def rTail : R → Bytes
  | .first => lit "x"
  | .plain | .ah | .qm | .qe => []
  | .h1 => lit "aa"
  | .h2 => lit "a"
  | .qp => lit "/"

theorem via_R {hx : Bool} {o : URN} {b : Nat} {w : Bytes} {q : R} (h : steps rStep .first w = some q) : Via (fun r => refR hx o r b) w := by
  refine Via.of (rTail q) ?_
  have h1 : ∃ q', steps rStep .first (w ++ rTail q) = some q' ∧ q'.canEnd = true := by
    rw [steps_append, h]
    cases q <;> first | exact ⟨.plain, rfl, rfl⟩ | exact ⟨.ah, rfl, rfl⟩ | exact ⟨.qm, rfl, rfl⟩ | exact ⟨.qe, rfl, rfl⟩
  obtain ⟨q', h1, h2⟩ := h1
  exact ⟨[], _, by rw [List.append_nil]; simp only [refR, munch_eq_nil h1, h2, if_true]; rfl⟩

theorem best_R (hx : Bool) (o : URN) (b : Nat) : AllBest (fun r => refR hx o r b) b := by
  intro rest e h
  rcases munch_split rStep .first rest with ⟨q, hm⟩ | ⟨q, w, c, t, rfl, _, hm⟩
  · have hv := via_R (hx := hx) (o := o) (b := b) (munch_steps hm)
    simp only [refR, hm] at h
    split at h
    · simp at h
    · split at h
      · rw [bad_inj h]
        exact Best.eof (at_bad (by decide) (by decide)) hv
      · rw [bad_inj h]
        exact Best.eof (at_bad (rErr_ne hx q).1 (rErr_ne hx q).2) hv
  · have hv := via_R (hx := hx) (o := o) (b := b) (munch_steps (hm []))
    by_cases h1 : c = 35 ∧ q.canEnd = true
    · refine Best.sub h (k' := fun r => refF hx { o with rComponent := w, rStart := true, tolower := o.tolower ++ ups .plain 0 w } r (b + w.length + 1)) ?_ (best_F hx _ _)
      intro x
      simp only [refR, hm, if_pos h1]
    · by_cases h2 : q = .first ∧ c = 63
      · have hw : w = [] := by
          have hs := munch_steps (hm [])
          rw [h2.1] at hs
          rcases steps_snoc hs with ⟨h, _⟩ | ⟨v, c', q1, _, _, hq⟩
          · exact h
          · exfalso
            have : ∀ q1 : R, ∀ c', rStep q1 c' ≠ some .first := by
              intro q1 c'; cases q1 <;> simp only [rStep] <;> (repeat' split) <;> simp
            exact this _ _ hq
        subst hw
        have hk : ∀ x, refR hx o ([] ++ c :: x) b = refRQ x (b + 1) := by
          intro x
          simp only [refR, hm, if_neg h1, if_pos h2]
        simp only [hk] at h
        obtain ⟨g1, g2⟩ := RQ_err h
        refine ⟨0, by simp, hv, fun _ x => ?_, Or.inr ⟨g1, by rw [h2.2]; rfl, g2⟩⟩
        obtain ⟨e', he'⟩ := refRQ_bad x (b + 1)
        have := hk x
        simp only [List.nil_append] at this
        simp only [List.nil_append, Nat.zero_add, List.take_succ_cons, List.take_zero, List.cons_append, this, he']
      · by_cases h3 : q = .qp ∧ startsAgain c = true
        · have hk : ∀ x, refR hx o (w ++ c :: x) b = bad .rComponentStart8141 (b + w.length) := by
            intro x; simp only [refR, hm, if_neg h1, if_neg h2, if_pos h3]
          simp only [hk] at h
          rw [bad_inj h]
          exact Best.leaf (at_bad (by decide) (by decide)) (fun x => by simp only [hk]; rfl) hv
        · by_cases h4 : q = .qe ∧ (isPchar c = true ∨ c = 37)
          · have hk : ∀ x, refR hx o (w ++ c :: x) b = refQ hx { o with rComponent := w.take (w.length - 2), rStart := true, tolower := o.tolower ++ ups .plain 0 w } .firstR (c :: x) (b + w.length) := by
              intro x; simp only [refR, hm, if_neg h1, if_neg h2, if_neg h3, if_pos h4]
            simp only [hk] at h
            obtain ⟨n, g1, g2, g3, g4⟩ := best_Q hx _ _ _ _ _ h
            have e1 : ∀ n x, (w ++ c :: t).take (w.length + (n + 1)) ++ x = w ++ c :: (t.take n ++ x) := by
              intro n x
              rw [show w.length + (n + 1) = w.length + 1 + n by omega, take_app_sub]; simp
            refine ⟨w.length + n, by simp at g1 ⊢; omega, ?_, fun hn x => ?_, ?_⟩
            · cases n with
              | zero => rw [Nat.add_zero, List.take_left]; exact hv
              | succ n =>
                obtain ⟨x, u, g2⟩ := g2
                refine ⟨x, u, ?_⟩
                simp only [e1, hk]
                simpa using g2
            · simp only [show w.length + n + 1 = w.length + (n + 1) by omega, e1, hk]
              have := g3 (by simp at hn ⊢; omega) x
              simpa using this
            · rw [List.getElem?_append_right (by omega), show w.length + n - w.length = n by omega]
              rcases g4 with g4 | ⟨g4, g5, g6⟩
              · left; rw [g4]; congr 1; omega
              · right; refine ⟨g4, g5, ?_⟩
                rcases g6 with g6 | g6
                · left; rw [g6]; congr 1; omega
                · right; rw [g6]; congr 1; omega
          · have hk : ∀ x, refR hx o (w ++ c :: x) b = bad (rErr hx q) (b + w.length) := by
              intro x; simp only [refR, hm, if_neg h1, if_neg h2, if_neg h3, if_neg h4]
            simp only [hk] at h
            rw [bad_inj h]
            exact Best.leaf (at_bad (rErr_ne hx q).1 (rErr_ne hx q).2) (fun x => by simp only [hk]; rfl) hv

theorem best_RQComp (hx : Bool) (o : URN) (b : Nat) : AllBest (fun r => refRQComp hx o r b) b := by
  intro rest e h
  match rest with
  | [] => simp [refRQComp] at h
  | c :: t =>
    by_cases h1 : c = 43
    · refine Best.sub (w := []) h (k' := fun r => refR hx o r (b + 1)) ?_ (best_R hx o _)
      intro x; simp [refRQComp, h1]
    · by_cases h2 : c = 61
      · refine Best.sub (w := []) h (k' := fun r => refQ hx o .first r (b + 1)) ?_ (best_Q hx o _ _)
        intro x; simp [refRQComp, h2]
      · simp [refRQComp, h1, h2] at h

theorem via_nss8141 {hx : Bool} {pre nid : Bytes} {b : Nat} {w : Bytes} {q : Nss}
    (h : steps (nssStep isPchar isPcharSlash) .start w = some q) : Via (fun r => refNss8141 hx pre nid r b) w := by
  refine Via.of (nssTail q) ?_
  obtain ⟨q', h1, h2⟩ := nss_via (first := isPchar) (cls := isPcharSlash) (by decide) h
  exact ⟨[], _, by rw [List.append_nil]; simp only [refNss8141, munch_eq_nil h1, h2, if_true]; rfl⟩

theorem best_nss8141 (hx : Bool) (pre nid : Bytes) (b : Nat) : AllBest (fun r => refNss8141 hx pre nid r b) b := by
  intro rest e h
  rcases munch_split (nssStep isPchar isPcharSlash) .start rest with ⟨q, hm⟩ | ⟨q, w, c, t, rfl, _, hm⟩
  · have hv := via_nss8141 (hx := hx) (pre := pre) (nid := nid) (b := b) (munch_steps hm)
    simp only [refNss8141, hm] at h
    split at h
    · simp at h
    · rw [bad_inj h]
      exact Best.eof (at_bad (nssErr_ne (by decide) (by decide)).1 (nssErr_ne (by decide) (by decide)).2) hv
  · have hv := via_nss8141 (hx := hx) (pre := pre) (nid := nid) (b := b) (munch_steps (hm []))
    by_cases h1 : c = 35 ∧ q.ok = true
    · refine Best.sub h (k' := fun r => refF hx { «prefix» := pre, ID := nid, SS := w, norm := lowerGo .plain w, tolower := ups .plain 0 w } r (b + w.length + 1)) ?_ (best_F hx _ _)
      intro x; simp only [refNss8141, hm, if_pos h1]
    · by_cases h2 : c = 63 ∧ q.ok = true
      · refine Best.sub h (k' := fun r => refRQComp hx { «prefix» := pre, ID := nid, SS := w, norm := lowerGo .plain w, tolower := ups .plain 0 w } r (b + w.length + 1)) ?_ (best_RQComp hx _ _)
        intro x; simp only [refNss8141, hm, if_neg h1, if_pos h2]
      · have hk : ∀ x, refNss8141 hx pre nid (w ++ c :: x) b = bad (nssErr hx .specificString8141 q) (b + w.length) := by
          intro x; simp only [refNss8141, hm, if_neg h1, if_neg h2]
        simp only [hk] at h
        rw [bad_inj h]
        exact Best.leaf (at_bad (nssErr_ne (by decide) (by decide)).1 (nssErr_ne (by decide) (by decide)).2) (fun x => by simp only [hk]; rfl) hv

/-- Bounds of the counters of the identifier scanner. -/
def N8.bounded : N8 → Prop
  | .al _ k => 1 ≤ k ∧ k ≤ 32
  | .da _ k => 2 ≤ k ∧ k ≤ 31
  | _ => True

theorem nid8_bounded {w : Bytes} : ∀ {q q' : N8}, q.bounded → steps nid8Step q w = some q' → q'.bounded := by
  induction w with
  | nil => intro q q' h1 h2; simp [steps] at h2; rw [← h2]; exact h1
  | cons c w ih =>
    intro q q' h1 h2
    rw [steps_cons, Option.bind_eq_some_iff] at h2
    obtain ⟨q1, h2, h3⟩ := h2
    refine ih ?_ h3
    cases q <;> simp only [nid8Step] at h2 <;> (repeat' split at h2) <;> simp at h2 <;> subst h2 <;> simp only [N8.bounded] at h1 ⊢ <;> omega

/-- Bytes that complete an identifier. -/
def nid8Tail : N8 → Bytes
  | .start => lit "xx"
  | .al _ k => if k = 1 then lit "x" else []
  | .da _ _ | .u1 => lit "x"
  | .u2 | .u3 => []
  | .u4 => lit "1"

theorem nid8_via {w : Bytes} {q : N8} (h : steps nid8Step .start w = some q) : acc8 .start (w ++ nid8Tail q) := by
  have hb := nid8_bounded (q := .start) trivial h
  simp only [acc8, steps_append, h, Option.bind_some]
  cases q with
  | start => exact ⟨.al false 2, rfl, rfl⟩
  | al i k =>
    simp only [N8.bounded] at hb
    by_cases hk : k = 1
    · subst hk; exact ⟨.al i 2, rfl, rfl⟩
    · simp only [nid8Tail, hk, if_false]
      exact ⟨.al i k, rfl, by simp [N8.canEnd]; omega⟩
  | da i k =>
    simp only [N8.bounded] at hb
    refine ⟨.al i (k + 1), ?_, by simp [N8.canEnd]; omega⟩
    have h1 : (120 : UInt8) ≠ 45 := by decide
    have h2 : isAlnum 120 = true ∧ k < 32 := ⟨by decide, by omega⟩
    show steps nid8Step (.da i k) [120] = _
    simp only [steps, nid8Step, if_neg h1, if_pos h2]
  | u1 => exact ⟨.al false 2, rfl, rfl⟩
  | u2 => exact ⟨.u2, rfl, rfl⟩
  | u3 => exact ⟨.u3, rfl, rfl⟩
  | u4 => exact ⟨.al true 5, rfl, rfl⟩

theorem via_nid8141 {hx : Bool} {pre w : Bytes} {q : N8} (h : steps nid8Step .start w = some q) : Via (scanNid8141 hx pre) w := by
  obtain ⟨q', h1, h2⟩ := nid8_via h
  refine Via.of (nid8Tail q ++ 58 :: lit "x") ?_
  rw [← List.append_assoc]
  have hm : ∀ x, munch nid8Step .start ((w ++ nid8Tail q) ++ 58 :: x) = (q', w ++ nid8Tail q, 58 :: x) := by
    intro x
    exact munch_eq h1 (by rintro c t h; simp at h; rw [← h.1]; exact nid8_colon q')
  refine Via.sub (k' := fun r => refNss8141 hx (if q'.inf then (w ++ nid8Tail q).take 3 else pre) (w ++ nid8Tail q) r (4 + (w ++ nid8Tail q).length + 1)) ?_ ?_
  · intro x
    simp only [scanNid8141, refNid8141, hm, h2, and_self, if_true]; simp
  · exact ⟨[], _, rfl⟩

theorem best_nid8141 (hx : Bool) (pre : Bytes) : AllBest (scanNid8141 hx pre) 4 := by
  intro rest e h
  rcases munch_split nid8Step .start rest with ⟨q, hm⟩ | ⟨q, w, c, t, rfl, _, hm⟩
  · simp [scanNid8141, refNid8141, hm] at h
    rw [bad_inj h]
    exact Best.eof (at_bad (by decide) (by decide)) (via_nid8141 (munch_steps hm))
  · have hv := via_nid8141 (hx := hx) (pre := pre) (munch_steps (hm []))
    by_cases hc : c = 58 ∧ q.canEnd = true
    · refine Best.sub h (k' := fun r => refNss8141 hx (if q.inf then w.take 3 else pre) w r (4 + w.length + 1)) ?_ (best_nss8141 hx _ w _)
      intro x
      simp only [scanNid8141, refNid8141, hm, if_pos hc]; simp
    · by_cases hu : q = .u4 ∧ isAlnum c = true
      · have hk : ∀ x, scanNid8141 hx pre (w ++ c :: x) = bad .informalID8141 7 := by
          intro x
          simp only [scanNid8141, refNid8141, hm, if_neg hc, if_pos hu]; simp
        rw [hk] at h
        rw [bad_inj h]
        have hs := munch_steps (hm [])
        rw [hu.1] at hs
        exact Best.leaf (by rw [u4_len hs]; rfl) (fun x => by rw [hk]; rfl) hv
      · have hk : ∀ x, scanNid8141 hx pre (w ++ c :: x) = bad .identifier8141 (4 + w.length) := by
          intro x
          simp only [scanNid8141, refNid8141, hm, if_neg hc, if_neg hu]; simp
        rw [hk] at h
        rw [bad_inj h]
        exact Best.leaf (at_bad (by decide) (by decide)) (fun x => by rw [hk]; rfl) hv

/-! ## Kinds of errors -/

theorem refFrom_or (st : Nat) (mode : ParsingMode) (s : Bytes) :
    (∃ u, refFrom st mode s = (some u, none)) ∨ refFrom st mode s = (none, none) ∨ (∃ e, refFrom st mode s = (none, some e)) := by
  simp only [refFrom]
  split
  · rcases ref2141_or (flagsOf mode) s with h | h
    · exact Or.inl h
    · exact Or.inr (Or.inr h)
  · split
    · rcases refScim_or (flagsOf mode) s with h | h
      · exact Or.inl h
      · exact Or.inr (Or.inr h)
    · split
      · exact (ref8141_or (flagsOf mode) s).imp id Or.symm
      · exact Or.inr (Or.inl rfl)

/-- What the errors of SCIM mode are. -/
def ScimErr (b : Nat) (rest : Bytes) (e : Err) : Prop :=
  ¬ CompKind e.kind ∧ e.kind ≠ .informalID8141 ∧ (e.kind = .scimOtherIncomplete → e.col = ((b + rest.length : Nat) : Int) - 1)

theorem scimErr_bad {b n : Nat} {rest : Bytes} {k : ErrKind} (h : k = .hex ∨ k = .scimOther ∨ k = .scimName ∨ k = .scimType ∨ k = .scimNamespace ∨ k = .pfx) :
    ScimErr b rest ⟨k, n⟩ := by
  rcases h with rfl | rfl | rfl | rfl | rfl | rfl <;> simp [ScimErr, CompKind]

theorem munch_len {σ : Type} (stp : σ → UInt8 → Option σ) (q : σ) (l : Bytes) : (munch stp q l).2.1.length + (munch stp q l).2.2.length = l.length := by
  have := congrArg List.length (munch_append stp q l)
  simpa using this

theorem scimErr_other {hx : Bool} {pre kw : Bytes} {ty : SchemaType} {name rest : Bytes} {b : Nat} {e : Err}
    (h : refScimOther hx pre kw ty name rest b = (none, some e)) : ScimErr b rest e := by
  have hl := munch_len (nssStep isSss isSss) .start rest
  simp only [refScimOther] at h
  generalize munch (nssStep isSss isSss) .start rest = y at *
  split at h
  · rename_i h1
    split at h
    · simp at h
    · split at h
      · rw [bad_inj h]; exact scimErr_bad (Or.inl rfl)
      · simp at h
        rw [h1] at hl
        simp at hl
        rw [← h]
        refine ⟨by simp [CompKind], by simp, fun _ => ?_⟩
        simp [hl]
  · rw [bad_inj h]
    apply scimErr_bad
    generalize y.1 = q
    cases q <;> cases hx <;> simp [nssErr]

theorem scimErr_name {hx : Bool} {pre kw : Bytes} {ty : SchemaType} {rest : Bytes} {b : Nat} {e : Err}
    (h : refScimName hx pre kw ty rest b = (none, some e)) : ScimErr b rest e := by
  have hl := munch_len nameStep false rest
  simp only [refScimName] at h
  generalize munch nameStep false rest = y at *
  split at h
  · split at h
    · simp at h
    · rename_i c t hc
      split at h
      · obtain ⟨h1, h2, h3⟩ := scimErr_other h
        rw [hc] at hl
        refine ⟨h1, h2, fun hk => ?_⟩
        rw [h3 hk]
        simp at hl
        rw [← hl]; congr 2; omega
      · rw [bad_inj h]; exact scimErr_bad (by simp)
  · rw [bad_inj h]; exact scimErr_bad (by simp)

theorem scimErr_type {hx : Bool} {pre rest : Bytes} {e : Err} (h : refScimType hx pre rest = (none, some e)) : ScimErr 21 rest e := by
  simp only [refScimType] at h
  split at h
  · exact bad_inj h ▸ scimErr_bad (n := 21) (by simp)
  · rename_i kw ty _
    have hl := munch_len (litStep (litPat (kw ++ lit ":"))) 0 rest
    have hl2 := lit_len (litPat (kw ++ lit ":")) rest 0
    split at h
    · rename_i h1
      obtain ⟨h2, h3, h4⟩ := scimErr_name h
      refine ⟨h2, h3, fun hk => ?_⟩
      rw [h4 hk]; congr 2; omega
    · rw [bad_inj h]; exact scimErr_bad (by simp)

theorem scimErr_ns {hx : Bool} {pre rest : Bytes} {e : Err} (h : refScimNs hx pre rest = (none, some e)) : ScimErr 4 rest e := by
  have hl := munch_len (litStep (litPat (lit "ietf:params:scim:"))) 0 rest
  have hl2 := lit_len (litPat (lit "ietf:params:scim:")) rest 0
  simp only [refScimNs] at h
  split at h
  · rename_i h1
    obtain ⟨h2, h3, h4⟩ := scimErr_type h
    refine ⟨h2, h3, fun hk => ?_⟩
    rw [h4 hk]; congr 2; omega
  · rw [bad_inj h]; exact scimErr_bad (by simp)

theorem scim_kinds {fl : Flags} {s : Bytes} {e : Err} (h : refScim fl s = (none, some e)) : ScimErr 0 s e := by
  have hl := munch_len (litStep urnPat) 0 s
  have hl2 := lit_len urnPat s 0
  simp only [refScim, refPrefix] at h
  split at h
  · rename_i h1
    obtain ⟨h2, h3, h4⟩ := scimErr_ns h
    refine ⟨h2, h3, fun hk => ?_⟩
    rw [h4 hk]; congr 2; omega
  · rw [bad_inj h]; exact scimErr_bad (by simp)

/-- Phases of the RFC 8141 parser do not report errors of SCIM mode. -/
def NoScim (x : Res) : Prop := ∀ e, x = (none, some e) → e.kind ≠ .scimOtherIncomplete

theorem noScim_bad {k : ErrKind} {n : Nat} (h : k ≠ .scimOtherIncomplete) : NoScim (bad k n) := fun _ he => bad_inj he ▸ h

theorem noScim_F (hx : Bool) (o : URN) (r : Bytes) (b : Nat) : NoScim (refF hx o r b) := by
  simp only [refF]
  split
  · intro e h; simp at h
  · split
    · exact noScim_bad (by decide)
    · intro e h; simp at h

theorem noScim_QQ (r : Bytes) (b : Nat) : NoScim (refQQ r b) := by
  simp only [refQQ]
  (repeat' split) <;> exact noScim_bad (by decide)

theorem noScim_RQ (r : Bytes) (b : Nat) : NoScim (refRQ r b) := by
  simp only [refRQ]
  (repeat' split) <;> exact noScim_bad (by decide)

theorem noScim_Q (hx : Bool) (o : URN) (q0 : Q) (r : Bytes) (b : Nat) : NoScim (refQ hx o q0 r b) := by
  simp only [refQ]
  split
  · split
    · intro e h; simp at h
    · split
      · exact noScim_bad (by decide)
      · exact noScim_bad (qErr_ne _ _).2
  · split
    · exact noScim_F _ _ _ _
    · split
      · exact noScim_QQ _ _
      · split
        · exact noScim_bad (by decide)
        · exact noScim_bad (qErr_ne _ _).2

theorem noScim_R (hx : Bool) (o : URN) (r : Bytes) (b : Nat) : NoScim (refR hx o r b) := by
  simp only [refR]
  split
  · split
    · intro e h; simp at h
    · split
      · exact noScim_bad (by decide)
      · exact noScim_bad (rErr_ne _ _).2
  · split
    · exact noScim_F _ _ _ _
    · split
      · exact noScim_RQ _ _
      · split
        · exact noScim_bad (by decide)
        · split
          · exact noScim_Q _ _ _ _ _
          · exact noScim_bad (rErr_ne _ _).2

theorem noScim_nss (hx : Bool) (pre nid r : Bytes) (b : Nat) : NoScim (refNss8141 hx pre nid r b) := by
  have hb : ∀ q n, NoScim (bad (nssErr hx .specificString8141 q) n) := fun q n => noScim_bad (nssErr_ne (by decide) (by decide)).2
  simp only [refNss8141]
  split
  · split
    · intro e h; simp at h
    · exact hb _ _
  · split
    · exact noScim_F _ _ _ _
    · split
      · simp only [refRQComp]
        split
        · intro e h; simp at h
        · split
          · exact noScim_R _ _ _ _
          · split
            · exact noScim_Q _ _ _ _ _
            · intro e h; simp at h
      · exact hb _ _

theorem kinds_8141 {fl : Flags} {s : Bytes} {e : Err} (h : ref8141 fl s = (none, some e)) : e.kind ≠ .scimOtherIncomplete := by
  revert e
  show NoScim (ref8141 fl s)
  simp only [ref8141, refPrefix]
  split
  · simp only [refNid8141]
    split
    · exact noScim_bad (by decide)
    · split
      · exact noScim_bad (by decide)
      · split
        · exact noScim_nss _ _ _ _ _
        · split
          · exact noScim_bad (by decide)
          · exact noScim_bad (by decide)
  · exact noScim_bad (by decide)

end Urn
