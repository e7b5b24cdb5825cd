import Verif.GramComp
import Verif.Lang2141
/-!
# The language of the RFC 8141 reference parser
-/
namespace Urn
open Spec

theorem steps_snoc {σ : Type} {stp : σ → UInt8 → Option σ} {q q' : σ} {w : Bytes} (h : steps stp q w = some q') :
    (w = [] ∧ q = q') ∨ ∃ w0 c q0, w = w0 ++ [c] ∧ steps stp q w0 = some q0 ∧ stp q0 c = some q' := by
  rcases List.eq_nil_or_concat w with rfl | ⟨w0, c, rfl⟩
  · simp [steps] at h; exact Or.inl ⟨rfl, h⟩
  · right
    rw [List.concat_eq_append] at h ⊢
    rw [steps_append, Option.bind_eq_some_iff] at h
    obtain ⟨q0, h1, h2⟩ := h
    refine ⟨w0, c, q0, rfl, h1, ?_⟩
    rw [steps_cons, Option.bind_eq_some_iff] at h2
    obtain ⟨q2, h2, h3⟩ := h2
    simp [steps] at h3; rw [h2, h3]

theorem ups_seq {cls : UInt8 → Bool} (hc : cls 37 = false) {w : Bytes} (h : PctSeq cls w) (x : Bytes) (k : Nat) :
    ups .plain k (w ++ x) = ups .plain k w ++ ups .plain (k + w.length) x := by
  induction h generalizing k with
  | nil => rfl
  | @char c w hcc _ ih =>
    have : c ≠ 37 := by rintro rfl; rw [hc] at hcc; simp at hcc
    simp only [List.cons_append, ups, Esc.adv, this, if_false, ih, List.append_assoc, List.length_cons]
    rw [show k + 1 + w.length = k + (w.length + 1) by omega]
  | @pct a b w _ _ _ ih =>
    simp only [List.cons_append, ups, Esc.adv, if_true, ih, List.append_assoc, List.length_cons]
    rw [show k + 1 + 1 + 1 + w.length = k + (w.length + 1 + 1 + 1) by omega]

theorem pchar_slash : ∀ c, isPchar c = true → isPcharSlash c = true := by
  intro c h; simp [isPcharSlash, h]
theorem pchar_slashQ : ∀ c, isPchar c = true → isPcharSlashQ c = true := by
  intro c h; simp [isPcharSlashQ, h]
theorem slash_slashQ : ∀ c, isPcharSlash c = true → isPcharSlashQ c = true := by
  intro c h; rw [pcharSlashQ_iff]; exact Or.inr h

/-- The rest of the input is empty or starts with `#`. -/
def AtFrag (x : Bytes) : Prop := x = [] ∨ ∃ t, x = 35 :: t

/-- Put the fragment of the rest of the input into the result. -/
def Frag (x : Bytes) (f : Option Bytes) : Prop := x = opt (lit "#") f

theorem atFrag_opt (f : Option Bytes) : AtFrag (opt (lit "#") f) := by
  cases f with
  | none => exact Or.inl rfl
  | some t => exact Or.inr ⟨t, rfl⟩

/-! ## Fragment -/

theorem fragment_iff {w : Bytes} : Fragment w ↔
    ∃ q, steps (nssStep isPcharSlashQ isPcharSlashQ) .start w = some q ∧ (q = .start ∨ q.ok = true) := by
  constructor
  · intro h
    by_cases hw : w = []
    · subst hw; exact ⟨.start, rfl, Or.inl rfl⟩
    · obtain ⟨q, h1, h2⟩ := (nss_iff pcharSlashQ37 pcharSlashQ37).mpr (pctSeq1_iff.mpr ⟨hw, h⟩)
      exact ⟨q, h1, Or.inr h2⟩
  · rintro ⟨q, h1, rfl | h2⟩
    · rcases steps_snoc h1 with ⟨rfl, _⟩ | ⟨w0, c, q0, rfl, _, h⟩
      · exact .nil
      · cases q0 <;> simp only [nssStep] at h <;> (repeat' split at h) <;> simp at h
    · exact (pctSeq1_iff.mp ((nss_iff pcharSlashQ37 pcharSlashQ37).mp ⟨q, h1, h2⟩)).2

/-- A fragment that makes the code stop without an error: a byte that is not allowed, which is not
next to an escape. -/
def FragStall (f : Bytes) : Prop :=
  ∃ g c t, f = g ++ c :: t ∧ (g = [] ∨ ∃ g' d, g = g' ++ [d] ∧ PctSeq isPcharSlashQ g' ∧ isPcharSlashQ d = true) ∧
    c ≠ 37 ∧ isPcharSlashQ c = false

theorem refF_ok {hx : Bool} {o : URN} {f : Bytes} {b : Nat} (h : Fragment f) :
    refF hx o f b = (some { o with fComponent := f, kind := .RFC8141, tolower := o.tolower ++ ups .plain 0 f }, none) := by
  obtain ⟨q, h1, h2⟩ := fragment_iff.mp h
  simp only [refF, munch_eq_nil h1, h2, and_self, if_true]

open Classical in
theorem refF_bad {hx : Bool} {o : URN} {f : Bytes} {b : Nat} (h : ¬ Fragment f) :
    refF hx o f b = if hx = true ∧ ¬ FragStall f then
      bad .hex (b + (munch (nssStep isPcharSlashQ isPcharSlashQ) .start f).2.1.length) else (none, none) := by
  have hs := steps_munch (stp := nssStep isPcharSlashQ isPcharSlashQ) .start f
  have ha := munch_append (nssStep isPcharSlashQ isPcharSlashQ) .start f
  have ht := fun c t => munch_stop (nssStep isPcharSlashQ isPcharSlashQ) .start f (c := c) (t := t)
  have hm : ∀ g c t q, f = g ++ c :: t → steps (nssStep isPcharSlashQ isPcharSlashQ) .start g = some q →
      nssStep isPcharSlashQ isPcharSlashQ q c = none →
      munch (nssStep isPcharSlashQ isPcharSlashQ) .start f = (q, g, c :: t) := by
    intro g c t q e h1 h2
    rw [e]
    exact munch_eq h1 (by rintro c' t' h; simp at h; rw [← h.1]; exact h2)
  simp only [refF]
  generalize hM : munch (nssStep isPcharSlashQ isPcharSlashQ) .start f = x at *
  obtain ⟨q, w, r⟩ := x
  simp only at *
  have hne : r ≠ [] ∨ ¬ (q = .start ∨ q.ok = true) := by
    by_cases hr : r = []
    · right; intro hq
      subst hr; rw [List.append_nil] at ha; subst ha
      exact h (fragment_iff.mpr ⟨q, hs, hq⟩)
    · exact Or.inl hr
  rw [if_neg (by rintro ⟨a, b⟩; rcases hne with h | h; exact h a; exact h b)]
  have key : FragStall f ↔ (q = .start ∨ q = .plain) := by
    constructor
    · rintro ⟨g, c, t, hf, hg, hc, hc'⟩
      rcases hg with rfl | ⟨g', d, rfl, hg', hd⟩
      · have e := hm [] c t .start hf rfl (by simp [nssStep, hc, hc'])
        simp at e; exact Or.inl e.1
      · obtain ⟨q1, h1, h2⟩ := fragment_iff.mp hg'
        have hd37 : d ≠ 37 := by rintro rfl; rw [pcharSlashQ37] at hd; simp at hd
        have h3 : steps (nssStep isPcharSlashQ isPcharSlashQ) .start (g' ++ [d]) = some .plain := by
          rw [steps_append, h1]
          simp only [Option.bind_some, steps]
          rcases h2 with rfl | h2
          · simp [nssStep, hd37, hd]
          · cases q1 <;> simp [Nss.ok] at h2 <;> simp [nssStep, hd37, hd]
        have e := hm _ c t .plain hf h3 (by simp [nssStep, hc, hc'])
        simp at e; exact Or.inr e.1
    · intro hq
      have hr : r ≠ [] := by
        rcases hne with hr | hq'
        · exact hr
        · exfalso; apply hq'
          rcases hq with rfl | rfl
          · exact Or.inl rfl
          · exact Or.inr rfl
      obtain ⟨c, t, rfl⟩ := List.exists_cons_of_ne_nil hr
      have hc := ht c t rfl
      have hcc : c ≠ 37 ∧ isPcharSlashQ c = false := by
        rcases hq with rfl | rfl <;> simp only [nssStep] at hc <;> (repeat' split at hc) <;> simp at hc <;>
          exact ⟨by assumption, by simp_all⟩
      refine ⟨w, c, t, ha.symm, ?_, hcc⟩
      rcases steps_snoc hs with ⟨rfl, _⟩ | ⟨w0, d, q0, rfl, h1, h2⟩
      · exact Or.inl rfl
      · right
        rcases hq with rfl | rfl
        · cases q0 <;> simp only [nssStep] at h2 <;> (repeat' split at h2) <;> simp at h2
        · have h3 : (q0 = .start ∨ q0.ok = true) ∧ isPcharSlashQ d = true := by
            cases q0 <;> simp only [nssStep] at h2 <;> (repeat' split at h2) <;> simp at h2 <;>
              exact ⟨by simp [Nss.ok], by assumption⟩
          exact ⟨w0, d, rfl, fragment_iff.mpr ⟨q0, h1, h3.1⟩, h3.2⟩
  rw [key]
  simp only [not_or, ne_eq]

/-! ## q-component -/

/-- The result after the q-component. -/
def withQ (o : URN) (q : Bytes) : URN :=
  { o with qComponent := q, qStart := true, tolower := o.tolower ++ ups .plain 0 q }

/-- What follows a component. -/
def refEnd (hx : Bool) (o : URN) (x : Bytes) (b : Nat) : Res :=
  match x with
  | [] => (some { o with kind := .RFC8141 }, none)
  | _ :: t => refF hx o t (b + 1)

theorem q_hash (q : Q) : qStep q 35 = none := by cases q <;> decide
theorem r_hash (q : R) : rStep q 35 = none := by cases q <;> decide

theorem refQ_ok {hx : Bool} {o : URN} {q0 : Q} (hq0 : q0 = .first ∨ q0 = .firstR) {q x : Bytes} {b : Nat} (h : QComp q)
    (hx' : AtFrag x) : refQ hx o q0 (q ++ x) b = refEnd hx (withQ o q) x (b + q.length) := by
  obtain ⟨q', h1, h2⟩ := (accQ_first hq0).mpr h
  have hm : munch qStep q0 (q ++ x) = (q', q, x) := by
    refine munch_eq h1 ?_
    rintro c t rfl
    rcases hx' with h | ⟨t', h⟩
    · simp at h
    · simp at h; rw [h.1]; exact q_hash q'
  simp only [refQ, hm]
  rcases hx' with rfl | ⟨t, rfl⟩
  · simp only [h2, if_true, refEnd, withQ]
  · simp only [h2, and_self, if_true, refEnd, withQ]

theorem refQQ_bad (rest : Bytes) (b : Nat) : ∃ e, refQQ rest b = (none, some e) := by
  unfold refQQ
  (repeat' split) <;> exact ⟨_, rfl⟩

theorem refQ_cases {q0 : Q} (hq0 : q0 = .first ∨ q0 = .firstR) (rest : Bytes) :
    (∃ q x, rest = q ++ x ∧ QComp q ∧ AtFrag x) ∨ ∀ hx o b, ∃ e, refQ hx o q0 rest b = (none, some e) := by
  have hs := steps_munch (stp := qStep) q0 rest
  have ha := munch_append qStep q0 rest
  simp only [refQ]
  generalize munch qStep q0 rest = x at *
  obtain ⟨q', w, r⟩ := x
  simp only at *
  by_cases hc : q'.canEnd = true ∧ AtFrag r
  · exact Or.inl ⟨w, r, ha.symm, (accQ_first hq0).mp ⟨q', hs, hc.1⟩, hc.2⟩
  · right
    intro hx o b
    cases r with
    | nil =>
      simp only
      rw [if_neg (fun h => hc ⟨h, Or.inl rfl⟩)]
      split <;> exact ⟨_, rfl⟩
    | cons c t =>
      simp only
      rw [if_neg (by rintro ⟨rfl, h⟩; exact hc ⟨h, Or.inr ⟨t, rfl⟩⟩)]
      split
      · exact refQQ_bad _ _
      · split <;> exact ⟨_, rfl⟩

/-! ## r-component -/

/-- The result after the r-component. -/
def withR (o : URN) (r : Bytes) : URN :=
  { o with rComponent := r, rStart := true, tolower := o.tolower ++ ups .plain 0 r }

theorem refR_ok {hx : Bool} {o : URN} {r x : Bytes} {b : Nat} (h : RComp r) (hx' : AtFrag x) :
    refR hx o (r ++ x) b = refEnd hx (withR o r) x (b + r.length) := by
  obtain ⟨q', h1, h2⟩ := accR_first.mpr h
  have hm : munch rStep .first (r ++ x) = (q', r, x) := by
    refine munch_eq h1 ?_
    rintro c t rfl
    rcases hx' with h | ⟨t', h⟩
    · simp at h
    · simp at h; rw [h.1]; exact r_hash q'
  simp only [refR, hm]
  rcases hx' with rfl | ⟨t, rfl⟩
  · simp only [h2, if_true, refEnd, withR]
  · simp only [h2, and_self, if_true, refEnd, withR]

theorem Spec.RComp.seq {r : Bytes} (h : RComp r) : PctSeq isPcharSlashQ r := PctSeq1.toSeq pchar_slashQ h.comp
theorem Spec.QComp.seq {r : Bytes} (h : QComp r) : PctSeq isPcharSlashQ r := PctSeq1.toSeq pchar_slashQ h.comp
theorem Spec.RComp.ne {r : Bytes} (h : RComp r) : r ≠ [] := by rintro rfl; cases h.comp
theorem Spec.QComp.ne {r : Bytes} (h : QComp r) : r ≠ [] := by rintro rfl; cases h.comp

/-- The q-component starts with a pchar or an escape. -/
theorem Spec.QComp.head {q : Bytes} (h : QComp q) : ∃ c t, q = c :: t ∧ (isPchar c = true ∨ c = 37) := by
  cases h.comp with
  | char h' _ => exact ⟨_, _, rfl, Or.inl h'⟩
  | pct => exact ⟨_, _, rfl, Or.inr rfl⟩

theorem refR_q {hx : Bool} {o : URN} {r rest : Bytes} {c : UInt8} {b : Nat} (h : RComp r) (hc : isPchar c = true ∨ c = 37) :
    refR hx o (r ++ 63 :: 61 :: c :: rest) b = refQ hx (withR o r) .firstR (c :: rest) (b + r.length + 2) := by
  obtain ⟨q', h1, h2⟩ := accR_first.mpr h
  have h3 : steps rStep .first (r ++ [63, 61]) = some .qe := by
    rw [steps_append, h1]
    simp only [Option.bind_some]
    cases q' <;> simp only [R.canEnd, Bool.false_eq_true] at h2 <;> decide
  have hc4 : rStep .qe c = none := by
    have : c ≠ 47 ∧ c ≠ 63 := by
      rcases hc with hc | rfl
      · exact ⟨(pchar_ne c hc).2.2.2, (pchar_ne c hc).1⟩
      · decide
    simp [rStep, this]
  have hc5 : c ≠ 35 := by
    rcases hc with hc | rfl
    · exact (pchar_ne c hc).2.2.1
    · decide
  have hm : munch rStep .first (r ++ 63 :: 61 :: c :: rest) = (.qe, r ++ [63, 61], c :: rest) := by
    have := munch_eq (r := c :: rest) h3 (by rintro c' t' h; simp at h; rw [← h.1]; exact hc4)
    rw [← this]; simp
  have hu : ups .plain 0 (r ++ [63, 61]) = ups .plain 0 r := by
    rw [ups_seq pcharSlashQ37 h.seq]; simp [ups, Esc.adv]
  have ht : (r ++ [63, 61]).take ((r ++ [63, 61]).length - 2) = r := by simp
  have hl : b + (r ++ [63, 61]).length = b + r.length + 2 := by simp; omega
  simp only [refR, hm, hc5, false_and, if_false, reduceCtorEq, hc, and_self, if_true, hu, ht, hl, withR]

theorem refRQ_bad (rest : Bytes) (b : Nat) : ∃ e, refRQ rest b = (none, some e) := by
  unfold refRQ
  (repeat' split) <;> exact ⟨_, rfl⟩

theorem refR_cases (rest : Bytes) :
    (∃ r x, rest = r ++ x ∧ RComp r ∧ AtFrag x) ∨
    (∃ r c t, rest = r ++ 63 :: 61 :: c :: t ∧ RComp r ∧ (isPchar c = true ∨ c = 37)) ∨
    ∀ hx o b, ∃ e, refR hx o rest b = (none, some e) := by
  have hs := steps_munch (stp := rStep) .first rest
  have ha := munch_append rStep .first rest
  simp only [refR]
  generalize munch rStep .first rest = x at *
  obtain ⟨q', w, r⟩ := x
  simp only at *
  by_cases hc : q'.canEnd = true ∧ AtFrag r
  · exact Or.inl ⟨w, r, ha.symm, accR_first.mp ⟨q', hs, hc.1⟩, hc.2⟩
  · right
    cases r with
    | nil =>
      right
      intro hx o b
      simp only
      rw [if_neg (fun h => hc ⟨h, Or.inl rfl⟩)]
      split <;> exact ⟨_, rfl⟩
    | cons c t =>
      by_cases hq : q' = .qe ∧ (isPchar c = true ∨ c = 37)
      · left
        obtain ⟨rfl, hq⟩ := hq
        rcases steps_snoc hs with ⟨_, h⟩ | ⟨w1, c1, q1, rfl, h1, h2⟩
        · simp at h
        · have e1 : c1 = 61 ∧ q1 = .qm := by
            cases q1 <;> simp only [rStep] at h2 <;> (repeat' split at h2) <;> simp at h2
            exact ⟨by assumption, rfl⟩
          obtain ⟨rfl, rfl⟩ := e1
          rcases steps_snoc h1 with ⟨_, h⟩ | ⟨w2, c2, q2, rfl, h3, h4⟩
          · simp at h
          · have e1 : c2 = 63 ∧ q2.canEnd = true := by
              cases q2 <;> simp only [rStep] at h4 <;> (repeat' split at h4) <;> simp at h4 <;>
                exact ⟨by assumption, rfl⟩
            obtain ⟨rfl, hce⟩ := e1
            exact ⟨w2, c, t, by rw [← ha]; simp, accR_first.mp ⟨q2, h3, hce⟩, hq⟩
      · right
        intro hx o b
        simp only
        rw [if_neg (by rintro ⟨rfl, h⟩; exact hc ⟨h, Or.inr ⟨t, rfl⟩⟩)]
        split
        · exact refRQ_bad _ _
        · split
          · exact ⟨_, rfl⟩
          · exact ⟨_, rfl⟩

/-! ## Specific string -/

/-- The result after the specific string. -/
def withNss (pre nid nss : Bytes) : URN :=
  { «prefix» := pre, ID := nid, SS := nss, norm := lowerEsc nss, tolower := ups .plain 0 nss }

theorem Spec.nss8141_seq {w : Bytes} (h : Nss8141 w) : PctSeq isPcharSlash w := PctSeq1.toSeq pchar_slash h

theorem nss8_stop {q : Nss} {c : UInt8} (hc : c = 35 ∨ c = 63) : nssStep isPchar isPcharSlash q c = none := by
  rcases hc with rfl | rfl <;> cases q <;> decide

theorem refNss8141_ok {hx : Bool} {pre nid nss x : Bytes} {b : Nat} (h : Nss8141 nss)
    (hx' : x = [] ∨ ∃ c t, x = c :: t ∧ (c = 35 ∨ c = 63)) :
    refNss8141 hx pre nid (nss ++ x) b =
      match x with
      | [] => (some { withNss pre nid nss with kind := .RFC8141 }, none)
      | c :: t => if c = 35 then refF hx (withNss pre nid nss) t (b + nss.length + 1)
                  else refRQComp hx (withNss pre nid nss) t (b + nss.length + 1) := by
  obtain ⟨q, h1, h2⟩ := (nss_iff pchar37 pcharSlash37).mpr h
  have hm : munch (nssStep isPchar isPcharSlash) .start (nss ++ x) = (q, nss, x) := by
    refine munch_eq h1 ?_
    rintro c t rfl
    rcases hx' with h | ⟨c', t', h, h'⟩
    · simp at h
    · simp at h; rw [h.1]; exact nss8_stop h'
  simp only [refNss8141, hm, lowerGo_eq pcharSlash37 (nss8141_seq h)]
  rcases hx' with rfl | ⟨c, t, rfl, hc⟩
  · simp only [h2, if_true, withNss]
  · rcases hc with rfl | rfl
    · simp only [h2, and_self, if_true, withNss]
    · simp only [h2, (by decide : (63 : UInt8) ≠ 35), false_and, if_false, and_self, if_true, withNss]

theorem refNss8141_cases (rest : Bytes) :
    (∃ nss x, rest = nss ++ x ∧ Nss8141 nss ∧ (x = [] ∨ ∃ c t, x = c :: t ∧ (c = 35 ∨ c = 63))) ∨
    ∀ hx pre nid b, ∃ e, refNss8141 hx pre nid rest b = (none, some e) := by
  have hs := steps_munch (stp := nssStep isPchar isPcharSlash) .start rest
  have ha := munch_append (nssStep isPchar isPcharSlash) .start rest
  simp only [refNss8141]
  generalize munch (nssStep isPchar isPcharSlash) .start rest = x at *
  obtain ⟨q', w, r⟩ := x
  simp only at *
  by_cases hc : q'.ok = true ∧ (r = [] ∨ ∃ c t, r = c :: t ∧ (c = 35 ∨ c = 63))
  · exact Or.inl ⟨w, r, ha.symm, (nss_iff pchar37 pcharSlash37).mp ⟨q', hs, hc.1⟩, hc.2⟩
  · right
    intro hx pre nid b
    cases r with
    | nil =>
      simp only
      rw [if_neg (fun h => hc ⟨h, Or.inl rfl⟩)]
      exact ⟨_, rfl⟩
    | cons c t =>
      simp only
      rw [if_neg (by rintro ⟨rfl, h⟩; exact hc ⟨h, Or.inr ⟨_, t, rfl, Or.inl rfl⟩⟩),
        if_neg (by rintro ⟨rfl, h⟩; exact hc ⟨h, Or.inr ⟨_, t, rfl, Or.inr rfl⟩⟩)]
      exact ⟨_, rfl⟩

/-! ## Identifier -/

theorem refNid8141_nid {fl : Flags} {pre nid nss : Bytes} (h : Nid8141 nid) :
    refNid8141 fl pre (nid ++ 58 :: nss) =
      if fl.chk ∧ clash (nid ++ 58 :: nss) then bad .noUrnWithinID 7
      else refNss8141 fl.hx (if startsUrn nid then nid.take 3 else pre) nid nss (4 + nid.length + 1) := by
  obtain ⟨q, h1, h2⟩ := acc8_iff.mpr h
  have hm : munch nid8Step .start (nid ++ 58 :: nss) = (q, nid, 58 :: nss) :=
    munch_eq h1 (by rintro c t h; simp at h; rw [← h.1]; exact nid8_colon q)
  simp only [refNid8141, hm, h2, and_self, if_true, inf_iff h1]

theorem refNid8141_cases (rest : Bytes) :
    (∃ nid nss, Nid8141 nid ∧ rest = nid ++ 58 :: nss) ∨ ∀ fl pre, ∃ e, refNid8141 fl pre rest = (none, some e) := by
  have hs := steps_munch (stp := nid8Step) .start rest
  have ha := munch_append nid8Step .start rest
  simp only [refNid8141]
  generalize munch nid8Step .start rest = x at *
  obtain ⟨q, w, r⟩ := x
  simp only at *
  by_cases hc : q.canEnd = true ∧ ∃ t, r = 58 :: t
  · obtain ⟨hc, t, rfl⟩ := hc
    exact Or.inl ⟨w, t, acc8_iff.mp ⟨q, hs, hc⟩, ha.symm⟩
  · right
    intro fl pre
    split
    · exact ⟨_, rfl⟩
    · cases r with
      | nil => exact ⟨_, rfl⟩
      | cons c t =>
        simp only
        rw [if_neg (by rintro ⟨rfl, h⟩; exact hc ⟨h, t, rfl⟩)]
        split <;> exact ⟨_, rfl⟩

/-! ## The whole -/

/-- The URN returned for `pre:nid:nss?+r?=q#f`. -/
def urn8141 (pre nid nss : Bytes) (r q f : Option Bytes) : URN :=
  { «prefix» := if startsUrn nid then nid.take 3 else pre, ID := nid, SS := nss, norm := lowerEsc nss, kind := .RFC8141,
    rComponent := r.getD [], qComponent := q.getD [], fComponent := f.getD [], rStart := r.isSome, qStart := q.isSome,
    tolower := ups .plain 0 nss ++ ups .plain 0 (r.getD []) ++ ups .plain 0 (q.getD []) ++ ups .plain 0 (f.getD []) }

/-- A URN whose part before the fragment is well formed, and what follows it. -/
structure Pre8141 (s pre nid nss : Bytes) (r q : Option Bytes) (x : Bytes) : Prop where
  eq : s = pre ++ 58 :: nid ++ 58 :: nss ++ opt (lit "?+") r ++ opt (lit "?=") q ++ x
  hpre : IsUrn pre
  hnid : Nid8141 nid
  hnss : Nss8141 nss
  hr : ∀ w, r = some w → RComp w
  hq : ∀ w, q = some w → QComp w

theorem Spec.Urn8141.toPre {s pre nid nss : Bytes} {r q f : Option Bytes} (h : Urn8141 s pre nid nss r q f) :
    Pre8141 s pre nid nss r q (opt (lit "#") f) := ⟨h.eq, h.hpre, h.hnid, h.hnss, h.hr, h.hq⟩

/-- Where the part after the components starts. -/
def fragAt (nid nss : Bytes) (r q : Option Bytes) : Nat :=
  5 + nid.length + nss.length + (opt (lit "?+") r).length + (opt (lit "?=") q).length

theorem refEnd_eq {hx : Bool} {o : URN} {x : Bytes} {b : Nat} : refEnd hx o x b =
    match x with
    | [] => (some { o with kind := .RFC8141 }, none)
    | _ :: t => refF hx o t (b + 1) := rfl

theorem refRest_pre {hx : Bool} {pre nid nss : Bytes} {r q : Option Bytes} {x : Bytes} (hnss : Nss8141 nss)
    (hr : ∀ w, r = some w → RComp w) (hq : ∀ w, q = some w → QComp w) (hxf : AtFrag x) :
    refNss8141 hx pre nid (nss ++ opt (lit "?+") r ++ opt (lit "?=") q ++ x) (4 + nid.length + 1) =
      refEnd hx { withNss pre nid nss with
        rComponent := r.getD [], qComponent := q.getD [], rStart := r.isSome, qStart := q.isSome,
        tolower := ups .plain 0 nss ++ ups .plain 0 (r.getD []) ++ ups .plain 0 (q.getD []) } x (fragAt nid nss r q) := by
  cases r with
  | none =>
    cases q with
    | none =>
      simp only [opt, List.append_nil]
      rw [refNss8141_ok hnss (by rcases hxf with h | ⟨t, h⟩; exact Or.inl h; exact Or.inr ⟨35, t, h, Or.inl rfl⟩)]
      rcases hxf with rfl | ⟨t, rfl⟩
      · simp [refEnd, withNss, ups]
      · simp only [if_true, refEnd, withNss, Option.getD_none, ups, List.append_nil, fragAt, opt, List.length_nil, Option.isSome_none]
        rw [show 4 + nid.length + 1 + nss.length + 1 = 5 + nid.length + nss.length + 0 + 0 + 1 by omega]
    | some q =>
      have e : nss ++ opt (lit "?+") none ++ opt (lit "?=") (some q) ++ x = nss ++ 63 :: 61 :: (q ++ x) := by
        simp [opt, lit]
      rw [e, refNss8141_ok hnss (Or.inr ⟨63, _, rfl, Or.inr rfl⟩)]
      simp only [(by decide : (63 : UInt8) ≠ 35), if_false, refRQComp, (by decide : (61 : UInt8) ≠ 43), if_true]
      rw [refQ_ok (Or.inl rfl) (hq q rfl) hxf]
      simp only [withQ, withNss, Option.getD_none, Option.getD_some, ups, List.append_nil, fragAt, opt, List.length_nil, Option.isSome_none, Option.isSome_some,
        List.length_append, show (lit "?=").length = 2 from rfl]
      rw [show 4 + nid.length + 1 + nss.length + 1 + 1 + q.length = 5 + nid.length + nss.length + 0 + (2 + q.length) by omega]
  | some r =>
    cases q with
    | none =>
      have e : nss ++ opt (lit "?+") (some r) ++ opt (lit "?=") none ++ x = nss ++ 63 :: 43 :: (r ++ x) := by
        simp [opt, lit]
      rw [e, refNss8141_ok hnss (Or.inr ⟨63, _, rfl, Or.inr rfl⟩)]
      simp only [(by decide : (63 : UInt8) ≠ 35), if_false, refRQComp, if_true]
      rw [refR_ok (hr r rfl) hxf]
      simp only [withR, withNss, Option.getD_none, Option.getD_some, ups, List.append_nil, fragAt, opt, List.length_nil, Option.isSome_none, Option.isSome_some,
        List.length_append, show (lit "?+").length = 2 from rfl]
      rw [show 4 + nid.length + 1 + nss.length + 1 + 1 + r.length = 5 + nid.length + nss.length + (2 + r.length) + 0 by omega]
    | some q =>
      have hqc := hq q rfl
      obtain ⟨c, t, rfl, hc⟩ := hqc.head
      have e : nss ++ opt (lit "?+") (some r) ++ opt (lit "?=") (some (c :: t)) ++ x = nss ++ 63 :: 43 :: (r ++ 63 :: 61 :: c :: (t ++ x)) := by
        simp [opt, lit]
      rw [e, refNss8141_ok hnss (Or.inr ⟨63, _, rfl, Or.inr rfl⟩)]
      simp only [(by decide : (63 : UInt8) ≠ 35), if_false, refRQComp, if_true]
      rw [refR_q (hr r rfl) hc, ← List.cons_append, refQ_ok (Or.inr rfl) hqc hxf]
      simp only [withR, withQ, withNss, Option.getD_some, fragAt, opt, Option.isSome_some,
        List.length_append, show (lit "?+").length = 2 from rfl, show (lit "?=").length = 2 from rfl]
      rw [show 4 + nid.length + 1 + nss.length + 1 + 1 + r.length + 2 + (c :: t).length =
        5 + nid.length + nss.length + (2 + r.length) + (2 + (c :: t).length) by omega]

/-- Everything up to the fragment is well formed. -/
theorem ref8141_pre {fl : Flags} {s pre nid nss : Bytes} {r q : Option Bytes} {x : Bytes}
    (h : Pre8141 s pre nid nss r q x) (hxf : AtFrag x) :
    ref8141 fl s = if fl.chk ∧ lookahead s then bad .noUrnWithinID 7 else
      refEnd fl.hx { withNss (if startsUrn nid then nid.take 3 else pre) nid nss with
        rComponent := r.getD [], qComponent := q.getD [], rStart := r.isSome, qStart := q.isSome,
        tolower := ups .plain 0 nss ++ ups .plain 0 (r.getD []) ++ ups .plain 0 (q.getD []) } x (fragAt nid nss r q) := by
  obtain ⟨rfl, h1, h2, h3, h4, h5⟩ := h
  have e : pre ++ 58 :: nid ++ 58 :: nss ++ opt (lit "?+") r ++ opt (lit "?=") q ++ x =
      pre ++ 58 :: (nid ++ 58 :: (nss ++ opt (lit "?+") r ++ opt (lit "?=") q ++ x)) := by simp
  rw [e]
  simp only [ref8141]
  rw [refPrefix_urn h1, refNid8141_nid h2, clash_eq h1, refRest_pre h3 h4 h5 hxf]

/-- The result on a well-formed URN. -/
theorem ref8141_wf {fl : Flags} {s pre nid nss : Bytes} {r q f : Option Bytes} (h : Urn8141 s pre nid nss r q f) :
    ref8141 fl s = if fl.chk ∧ lookahead s then bad .noUrnWithinID 7 else (some (urn8141 pre nid nss r q f), none) := by
  rw [ref8141_pre h.toPre (atFrag_opt f)]
  congr 1
  cases f with
  | none => simp [opt, refEnd, urn8141, withNss, ups]
  | some f =>
    have : opt (lit "#") (some f) = 35 :: f := rfl
    rw [this]
    simp only [refEnd]
    rw [refF_ok (h.hf f rfl)]
    simp [urn8141, withNss]

/-- The inputs for which nothing is returned, not even an error: a question mark that does not
start a component, or a fragment with a forbidden byte. -/
inductive Stall (hx : Bool) (s : Bytes) : Prop where
  | qm (pre nid nss t : Bytes) : Pre8141 s pre nid nss none none (63 :: t) → t.head? ≠ some 43 → t.head? ≠ some 61 → Stall hx s
  | frag (pre nid nss : Bytes) (r q : Option Bytes) (f : Bytes) : Pre8141 s pre nid nss r q (35 :: f) → ¬ Fragment f →
      (hx = true → FragStall f) → Stall hx s

theorem ref8141_stall {fl : Flags} {s : Bytes} (h : Stall fl.hx s) :
    ref8141 fl s = if fl.chk ∧ lookahead s then bad .noUrnWithinID 7 else (none, none) := by
  cases h with
  | qm pre nid nss t h h43 h61 =>
    obtain ⟨rfl, h1, h2, h3, h4, h5⟩ := h
    have e : pre ++ 58 :: nid ++ 58 :: nss ++ opt (lit "?+") none ++ opt (lit "?=") none ++ 63 :: t =
        pre ++ 58 :: (nid ++ 58 :: (nss ++ 63 :: t)) := by simp [opt]
    rw [e]
    simp only [ref8141]
    rw [refPrefix_urn h1, refNid8141_nid h2, clash_eq h1, refNss8141_ok h3 (Or.inr ⟨63, _, rfl, Or.inr rfl⟩)]
    congr 1
    simp only [(by decide : (63 : UInt8) ≠ 35), if_false]
    cases t with
    | nil => rfl
    | cons c t =>
      simp at h43 h61
      simp [refRQComp, h43, h61]
  | frag pre nid nss r q f h hf hst =>
    rw [ref8141_pre h (Or.inr ⟨f, rfl⟩)]
    congr 1
    simp only [refEnd]
    rw [refF_bad hf, if_neg]
    rintro ⟨a, b⟩; exact b (hst a)

theorem ref8141_else {fl : Flags} {s : Bytes} (h : ∀ pre nid nss r q f, ¬ Urn8141 s pre nid nss r q f)
    (hs : ¬ Stall fl.hx s) : ∃ e, ref8141 fl s = (none, some e) := by
  rcases refPrefix_cases s with ⟨pre, rest, h1, rfl⟩ | ⟨n, _, _, hb⟩
  · simp only [ref8141]
    rw [refPrefix_urn h1]
    rcases refNid8141_cases rest with ⟨nid, rest, h2, rfl⟩ | hb
    · rw [refNid8141_nid h2]
      split
      · exact ⟨_, rfl⟩
      · -- the rest, in general
        have frag : ∀ (nss : Bytes) (r q : Option Bytes) (x : Bytes), Nss8141 nss → (∀ w, r = some w → RComp w) →
            (∀ w, q = some w → QComp w) → AtFrag x → rest = nss ++ opt (lit "?+") r ++ opt (lit "?=") q ++ x →
            ∃ e, refNss8141 fl.hx (if startsUrn nid then nid.take 3 else pre) nid rest (4 + nid.length + 1) = (none, some e) := by
          rintro nss r q x h3 h4 h5 hxf rfl
          rcases hxf with rfl | ⟨f, rfl⟩
          · exact absurd ⟨by simp [opt], h1, h2, h3, h4, h5, by simp⟩ (h pre nid nss r q none)
          · rw [refRest_pre h3 h4 h5 (Or.inr ⟨f, rfl⟩)]
            have hf : ¬ Fragment f := fun hf =>
              h pre nid nss r q (some f) ⟨by simp [opt, lit], h1, h2, h3, h4, h5, by rintro w hw; simp at hw; rw [← hw]; exact hf⟩
            simp only [refEnd]
            rw [refF_bad hf, if_pos]
            · exact ⟨_, rfl⟩
            · by_cases hh : fl.hx = true
              · refine ⟨hh, fun hst => hs ?_⟩
                exact .frag pre nid nss r q f ⟨by simp, h1, h2, h3, h4, h5⟩ hf (fun _ => hst)
              · exact absurd (.frag pre nid nss r q f ⟨by simp, h1, h2, h3, h4, h5⟩ hf (fun h => absurd h hh)) hs
        rcases refNss8141_cases rest with ⟨nss, x, e, h3, hx⟩ | hb
        · rcases hx with rfl | ⟨c, t, rfl, rfl | rfl⟩
          · exact frag nss none none [] h3 (by simp) (by simp) (Or.inl rfl) (by simp [opt, e])
          · exact frag nss none none (35 :: t) h3 (by simp) (by simp) (Or.inr ⟨t, rfl⟩) (by simp [opt, e])
          · by_cases h43 : t.head? = some 43
            · obtain ⟨t, rfl⟩ : ∃ t', t = 43 :: t' := by
                cases t with
                | nil => simp at h43
                | cons a b => simp at h43; exact ⟨b, by rw [h43]⟩
              rcases refR_cases t with ⟨r, x, rfl, hr, hxf⟩ | ⟨r, c, t, rfl, hr, hc⟩ | hb
              · exact frag nss (some r) none x h3 (by rintro w hw; simp at hw; rw [← hw]; exact hr) (by simp) hxf (by simp [opt, e, lit])
              · rcases refQ_cases (q0 := .firstR) (Or.inr rfl) (c :: t) with ⟨q, x, e', hq, hxf⟩ | hb
                · exact frag nss (some r) (some q) x h3 (by rintro w hw; simp at hw; rw [← hw]; exact hr)
                    (by rintro w hw; simp at hw; rw [← hw]; exact hq) hxf (by simp [opt, e, lit, e'])
                · rw [e, refNss8141_ok h3 (Or.inr ⟨63, _, rfl, Or.inr rfl⟩)]
                  simp only [(by decide : (63 : UInt8) ≠ 35), if_false, refRQComp, if_true]
                  rw [refR_q hr hc]
                  exact hb _ _ _
              · rw [e, refNss8141_ok h3 (Or.inr ⟨63, _, rfl, Or.inr rfl⟩)]
                simp only [(by decide : (63 : UInt8) ≠ 35), if_false, refRQComp, if_true]
                exact hb _ _ _
            · by_cases h61 : t.head? = some 61
              · obtain ⟨t, rfl⟩ : ∃ t', t = 61 :: t' := by
                  cases t with
                  | nil => simp at h61
                  | cons a b => simp at h61; exact ⟨b, by rw [h61]⟩
                rcases refQ_cases (q0 := .first) (Or.inl rfl) t with ⟨q, x, rfl, hq, hxf⟩ | hb
                · exact frag nss none (some q) x h3 (by simp) (by rintro w hw; simp at hw; rw [← hw]; exact hq) hxf (by simp [opt, e, lit])
                · rw [e, refNss8141_ok h3 (Or.inr ⟨63, _, rfl, Or.inr rfl⟩)]
                  simp only [(by decide : (63 : UInt8) ≠ 35), if_false, refRQComp, if_true, (by decide : (61 : UInt8) ≠ 43)]
                  exact hb _ _ _
              · subst e
                exact absurd (.qm pre nid nss t ⟨by simp [opt], h1, h2, h3, by simp, by simp⟩ h43 h61) hs
        · exact hb _ _ _ _
    · exact hb _ _
  · exact ⟨_, hb _⟩

/-- Exact language and results. -/
theorem ref8141_iff {fl : Flags} {s : Bytes} {u : URN} :
    ref8141 fl s = (some u, none) ↔
      ∃ pre nid nss r q f, Urn8141 s pre nid nss r q f ∧ ¬ (fl.chk = true ∧ lookahead s = true) ∧ u = urn8141 pre nid nss r q f := by
  by_cases h : ∃ pre nid nss r q f, Urn8141 s pre nid nss r q f
  · obtain ⟨pre, nid, nss, r, q, f, h⟩ := h
    rw [ref8141_wf h]
    constructor
    · intro h'
      split at h'
      · simp [bad] at h'
      · rename_i hl
        simp at h'
        exact ⟨pre, nid, nss, r, q, f, h, hl, h'.symm⟩
    · rintro ⟨pre', nid', nss', r', q', f', h', hl, rfl⟩
      rw [if_neg hl]
      have e := ref8141_wf (fl := ⟨true, false⟩) h
      rw [ref8141_wf (fl := ⟨true, false⟩) h'] at e
      simpa using e.symm
  · have h' : ∀ pre nid nss r q f, ¬ Urn8141 s pre nid nss r q f := fun a b c d e f hu => h ⟨a, b, c, d, e, f, hu⟩
    constructor
    · intro hr
      exfalso
      by_cases hs : Stall fl.hx s
      · rw [ref8141_stall hs] at hr
        split at hr <;> simp [bad] at hr
      · obtain ⟨e, he⟩ := ref8141_else (fl := fl) h' hs
        rw [he] at hr; simp at hr
    · rintro ⟨pre, nid, nss, r, q, f, hu, _⟩; exact absurd hu (h' _ _ _ _ _ _)

/-- Exactly when neither a URN nor an error is returned. -/
theorem ref8141_nil {fl : Flags} {s : Bytes} :
    ref8141 fl s = (none, none) ↔ Stall fl.hx s ∧ ¬ (fl.chk = true ∧ lookahead s = true) := by
  by_cases hs : Stall fl.hx s
  · rw [ref8141_stall hs]
    constructor
    · intro h
      split at h
      · simp [bad] at h
      · exact ⟨hs, by assumption⟩
    · rintro ⟨_, h⟩; rw [if_neg h]
  · constructor
    · intro hr
      exfalso
      by_cases h : ∃ pre nid nss r q f, Urn8141 s pre nid nss r q f
      · obtain ⟨pre, nid, nss, r, q, f, h⟩ := h
        rw [ref8141_wf h] at hr
        split at hr <;> simp [bad] at hr
      · obtain ⟨e, he⟩ := ref8141_else (fl := fl) (fun a b c d e f hu => h ⟨a, b, c, d, e, f, hu⟩) hs
        rw [he] at hr; simp at hr
    · rintro ⟨h, _⟩; exact absurd h hs

/-- There are only three outcomes. -/
theorem ref8141_or (fl : Flags) (s : Bytes) :
    (∃ u, ref8141 fl s = (some u, none)) ∨ (∃ e, ref8141 fl s = (none, some e)) ∨ ref8141 fl s = (none, none) := by
  by_cases h : ∃ pre nid nss r q f, Urn8141 s pre nid nss r q f
  · obtain ⟨pre, nid, nss, r, q, f, h⟩ := h
    rw [ref8141_wf h]
    split
    · exact Or.inr (Or.inl ⟨_, rfl⟩)
    · exact Or.inl ⟨_, rfl⟩
  · by_cases hs : Stall fl.hx s
    · rw [ref8141_stall hs]
      split
      · exact Or.inr (Or.inl ⟨_, rfl⟩)
      · exact Or.inr (Or.inr rfl)
    · exact Or.inr (Or.inl (ref8141_else (fun a b c d e f hu => h ⟨a, b, c, d, e, f, hu⟩) hs))

theorem opt_eq {p : Bytes} {a b : Option Bytes} (h : a.getD [] = b.getD []) (h' : a.isSome = b.isSome) : opt p a = opt p b := by
  cases a <;> cases b <;> simp_all [opt]

/-- A URN can be split in only one way. -/
theorem Spec.Urn8141.unique {s pre nid nss pre' nid' nss' : Bytes} {r q f r' q' f' : Option Bytes}
    (h : Urn8141 s pre nid nss r q f) (h' : Urn8141 s pre' nid' nss' r' q' f') :
    pre = pre' ∧ nid = nid' ∧ nss = nss' ∧ r = r' ∧ q = q' ∧ f = f' := by
  have e := ref8141_wf (fl := ⟨true, false⟩) h
  rw [ref8141_wf (fl := ⟨true, false⟩) h'] at e
  simp only [urn8141, Bool.false_eq_true, false_and, if_false, Prod.mk.injEq, Option.some.injEq, URN.mk.injEq, and_true, true_and] at e
  obtain ⟨_, e2, e3, _, er, eq, ef, er', eq', _⟩ := e
  have hopt : ∀ {a b : Option Bytes}, a.getD [] = b.getD [] → a.isSome = b.isSome → a = b := by
    intro a b h h'; cases a <;> cases b <;> simp_all
  have h4 : r = r' := (hopt er er').symm
  have h5 : q = q' := (hopt eq eq').symm
  have hp : pre = pre' := by
    have a := h.eq; rw [h'.eq] at a
    have h1 := h.hpre.length
    have h2 := h'.hpre.length
    simp only [List.append_assoc, List.cons_append] at a
    exact (List.append_inj_left a (by omega)).symm
  subst e2 e3 h4 h5 hp
  have hf : opt (lit "#") f = opt (lit "#") f' := by
    have a := h.eq; rw [h'.eq] at a
    exact (List.append_cancel_left a).symm
  refine ⟨rfl, rfl, rfl, rfl, rfl, ?_⟩
  cases f <;> cases f' <;> simp_all [opt, lit]

end Urn
