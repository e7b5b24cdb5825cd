import Verif.Tab2141
/-!
# The RFC 2141 automaton computes `ref2141`
-/
namespace Urn
open Tables Spec

variable {m0 : Machine} {s : Bytes}

/-! ## Runs -/

theorem nss_length_zero {first cls : UInt8 → Bool} {l : Bytes}
    (h : (munch (nssStep first cls) .start l).1 = .start) : (munch (nssStep first cls) .start l).2.1 = [] := by
  have key : ∀ l q, q ≠ .start → (munch (nssStep first cls) q l).1 ≠ .start := by
    intro l
    induction l with
    | nil => intro q hq; exact hq
    | cons c r ih =>
      intro q hq
      simp only [munch]
      cases hs : nssStep first cls q c with
      | none => exact hq
      | some q' =>
        apply ih
        rintro rfl
        cases q <;> simp only [nssStep] at hs <;> split at hs <;> (try split at hs) <;> simp at hs
  cases l with
  | nil => rfl
  | cons c r =>
    simp only [munch] at h ⊢
    cases hs : nssStep first cls .start c with
    | none => rfl
    | some q' =>
      simp only [hs] at h
      refine absurd h (key _ _ ?_)
      rintro rfl
      simp only [nssStep] at hs; split at hs <;> (try split at hs) <;> simp at hs

theorem nss2Final : ∀ q : Nss, q.ok = true → 172 ≤ nss2Enc q ∧ nss2Enc q ≠ 193 := by
  intro q; cases q <;> decide

/-- Running the specific string. -/
theorem nss2_run {b : Nat} {pb : Int} {o : URN} {nss : Bytes} (hd : s.drop b = nss) (hb : b ≤ s.length)
    (ho : o = { «prefix» := o.prefix, ID := o.ID }) :
    Gives m0 s 38 b pb o (refNss2141 (flagsOf m0.parsingMode).hx o.prefix o.ID nss b) := by
  obtain ⟨pb', o', hJ, hd', hE⟩ := nss_sim (m0 := m0) (s := s) nss2Tab (b := b) (pb0 := pb) (o0 := o)
    (pb1 := b) (k0 := 0) (o1 := o) rfl (fun cs => rfl) nss hd
  have hle := munch_le (stp := nssStep isSss isSss) (q := .start) hd hb
  refine Gives.munch hle hE ?_
  have happ := munch_append (nssStep isSss isSss) .start nss
  have hstop := fun c t => munch_stop (nssStep isSss isSss) .start nss (c := c) (t := t)
  have hz := nss_length_zero (first := isSss) (cls := isSss) (l := nss)
  unfold refNss2141
  generalize munch (nssStep isSss isSss) .start nss = x at *
  obtain ⟨q, w, r⟩ := x
  simp only at *
  cases r with
  | nil =>
    have hlen : b + w.length = s.length := by have := length_of_drop hd' hle; simp at this; omega
    simp only [List.append_nil] at happ
    subst happ
    have hsl : sl s b (b + w.length) = w := sl_of_drop (r := []) (by rw [hd]; simp)
    by_cases hok : q.ok = true
    · have hns : q ≠ .start := by rintro rfl; simp [Nss.ok] at hok
      simp only [JN, hns, if_false] at hJ
      obtain ⟨hlt, _, rfl, rfl, _⟩ := hJ
      simp only [hok, and_self, if_true]
      refine Gives.eofOk hlen (nss2Eof q) (nss2Final q hok).1 (nss2Final q hok).2 (pb' := b) ?_
      rw [hok]
      simp only [if_true]
      rw [exec_cons_next (act_setNss (by omega) (by omega) (by rw [ho]; rfl)), exec_cons_next act_base, exec_nil, hsl]
      rw [ho]
      rfl
    · simp only [hok, if_false, and_false, Bool.false_eq_true]
      refine Gives.eofBad hlen (nss2Eof q) ?_
      simp only [hok, if_false, Bool.false_eq_true]
      exact nss2Raise
  | cons c t =>
    obtain ⟨hc, _⟩ := drop_cons hd'
    have hs := hstop c t rfl
    simp only [List.cons_ne_nil, false_and, if_false]
    refine Gives.bad hc (nss2Tab q c).1 ?_
    rw [nss2Bad q c hs]
    exact nss2Raise

/-- Running the identifier. -/
theorem nid2_run {pre : Bytes} {rest : Bytes} (hd : s.drop 4 = rest) (hb : 4 ≤ s.length) (hpre : pre ≠ []) :
    Gives m0 s 5 4 0 { «prefix» := pre } (refNid2141 (flagsOf m0.parsingMode) pre rest) := by
  unfold refNid2141
  by_cases hcl : (flagsOf m0.parsingMode).chk = true ∧ clash rest = true
  · rw [if_pos hcl]
    obtain ⟨h1, h2⟩ := hcl
    cases rest with
    | nil => simp [clash] at h2
    | cons c r =>
      simp only [clash, List.head?_cons, Option.map_some, Bool.and_eq_true, beq_iff_eq, Option.some.injEq] at h2
      obtain ⟨h2, h3⟩ := h2
      obtain ⟨hc, _⟩ := drop_cons hd
      have ht := nid2Tab .start rfl c
      have h7 : s[4 + 3]? = some 58 := by rw [← hd, List.getElem?_drop] at h3; exact h3
      have hal : isAlnum c = true := by
        have : ∀ c : UInt8, lower c = 117 → isAlnum c = true := forall_byte (by decide +kernel)
        exact this c h2
      simp only [nid2Row, nid2Step, hal, if_true, h2] at ht
      refine Gives.bad (p' := 7) hc (by decide) ?_
      rw [show (5 : Nat) = N2.start.enc from rfl, ht]
      exact throw_raises h1 hpre h7
  · rw [if_neg hcl]
    have H := munch_sim (m0 := m0) (s := s) nid2Step N2.enc
      (fun q p pb o => q.wf = true ∧ o = { «prefix» := pre } ∧ if q = .start then p = 4 else (4 < p ∧ pb = 4))
      (by
        rintro q q' c p pb o ⟨hwf, rfl, hq⟩ hc hs
        have hwf' := nid2_wf_step hwf hs
        have hns := nid2_ne_start hs
        have ht := nid2Tab q hwf c
        simp only [nid2Row, hs] at ht
        by_cases hst : q = .start
        · subst hst
          simp only [if_true] at hq ht
          subst hq
          refine ⟨4, _, ⟨hwf', rfl, by simp [hns]⟩, (nid2State _ hwf).1, by rw [ht], (nid2State _ hwf').1,
            (nid2State _ hwf').2, ?_⟩
          rw [ht]
          by_cases hu : lower c = 117
          · rw [if_pos hu, throw_ok, exec_nil]
            · rfl
            · intro hchk _ h58
              apply hcl
              refine ⟨hchk, ?_⟩
              have h1 : rest.head? = some c := by rw [← hd, List.head?_drop]; exact hc
              have h2 : rest[3]? = some 58 := by rw [← hd, List.getElem?_drop]; exact h58
              simp [clash, h1, h2, hu]
          · rw [if_neg hu]; rfl
        · simp only [hst, if_false] at hq ht
          obtain ⟨hp, rfl⟩ := hq
          refine ⟨4, _, ⟨hwf', rfl, by rw [if_neg hns]; exact ⟨by omega, rfl⟩⟩, (nid2State _ hwf).1, by rw [ht],
            (nid2State _ hwf').1, (nid2State _ hwf').2, ?_⟩
          rw [ht]; rfl)
      rest .start 4 0 { «prefix» := pre } hd ⟨rfl, rfl, by simp⟩
    obtain ⟨pb', o', ⟨hwf, rfl, hq⟩, hd', hE⟩ := H
    have hle := munch_le (stp := nid2Step) (q := .start) hd hb
    refine Gives.munch hle hE ?_
    have happ := munch_append nid2Step .start rest
    have hstop := fun c t => munch_stop nid2Step .start rest (c := c) (t := t)
    generalize munch nid2Step .start rest = x at *
    obtain ⟨q, w, r⟩ := x
    simp only at *
    cases r with
    | nil =>
      have hlen : 4 + w.length = s.length := by have := length_of_drop hd' hle; simp at this; omega
      obtain ⟨as, he⟩ := nid2Eof q hwf
      exact Gives.eofBad hlen he (raises_of (fun _ _ => rfl))
    | cons c t =>
      obtain ⟨hc, hd2⟩ := drop_cons hd'
      have hs := hstop c t rfl
      have ht := nid2Tab q hwf c
      simp only [nid2Row, hs] at ht
      simp only
      by_cases hcol : c = 58 ∧ q.canEnd = true
      · rw [if_pos hcol] at ht ⊢
        have hns : q ≠ .start := by rintro rfl; simp [N2.canEnd] at hcol
        simp only [hns, if_false] at hq
        obtain ⟨_, rfl⟩ := hq
        have hlt := lt_of_get hc
        have hsl : sl s 4 (4 + w.length) = w := sl_of_drop (by rw [hd, ← happ])
        refine Gives.char (t := 38) (pb' := 4) (o' := { «prefix» := pre, ID := w }) hc
          ⟨(nid2State q hwf).1, by rw [ht], by decide, by decide, ?_⟩ ?_
        · rw [ht]
          have h := act_setNid (m0 := m0) (s := s) (cs := 38) (p := 4 + w.length) (b := 4) (err := none)
            (o := { «prefix» := pre }) (by omega) (by omega)
          rw [hsl] at h
          exact exec_cons_next h
        · exact nss2_run (o := { «prefix» := pre, ID := w }) hd2 (by omega) rfl
      · rw [if_neg hcol] at ht ⊢
        refine Gives.bad hc (nid2State q hwf).1 ?_
        rw [ht]
        cases q <;> exact raises_of (fun _ _ => rfl)

theorem run2141 : Gives m0 s 1 0 0 {} (ref2141 (flagsOf m0.parsingMode) s) :=
  prefix_run preTab1 (fun rest hd hl => nid2_run hd hl (by
    intro h
    have := congrArg List.length h
    rw [List.length_take, List.length_nil] at this
    omega))

end Urn
