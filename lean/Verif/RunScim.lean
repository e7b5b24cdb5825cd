import Verif.TabScim
import Verif.Run2141
/-!
# The SCIM automaton computes `refScim`
-/
namespace Urn
open Tables Spec

variable {m0 : Machine} {s : Bytes}

theorem litPat_get (w : Bytes) (i : Nat) : (litPat w)[i]? = (w[i]?).map (fun a c => c == a) := by
  simp [litPat]

theorem litStep_some {w : Bytes} {i j : Nat} {c : UInt8} :
    litStep (litPat w) i c = some j ↔ w[i]? = some c ∧ j = i + 1 := by
  simp only [litStep, litPat_get]
  cases h : w[i]? with
  | none => simp
  | some a =>
    simp only [Option.map_some, Option.some.injEq]
    by_cases hc : c = a
    · subst hc; simp [eq_comm]
    · simp [hc]; intro h; exact absurd h.symm hc

theorem litStep_none {w : Bytes} {i : Nat} {c : UInt8} :
    litStep (litPat w) i c = none ↔ w[i]? ≠ some c := by
  simp only [litStep, litPat_get]
  cases h : w[i]? with
  | none => simp
  | some a =>
    simp only [Option.map_some]
    by_cases hc : c = a
    · subst hc; simp
    · simp [hc]; exact fun h => hc h.symm

/-- Running a literal: `F i` is the mark and the output after `i` bytes. -/
theorem lit_sim {w : Bytes} {enc : Nat → Nat} {acts : Nat → List Act} {err : List Act} {from_ : Nat}
    (hT : LitTab w enc acts err from_) {b : Nat} (F : Nat → Int × URN)
    (hF : ∀ i < w.length, b + i < s.length → sl s b (b + i) = w.take i →
      execActs (acts i) (mk m0 s (enc (i + 1)) (b + i : Nat) (F i).1 none) (F i).2 =
        .ok (.next, mk m0 s (enc (i + 1)) (b + i : Nat) (F (i + 1)).1 none, (F (i + 1)).2))
    (rest : Bytes) (hd : s.drop b = rest) (hb : b ≤ s.length) {ek : ErrKind}
    (hE : ∀ cs p pb o, Raises m0 s err cs p pb o ⟨ek, p⟩)
    (hfrom : ∀ i < from_, ∀ c, rest[i]? = some c → w[i]? = some c)
    {k : Bytes → Res}
    (hk : ∀ rest', s.drop (b + w.length) = rest' → b + w.length ≤ s.length → sl s b (b + w.length) = w →
      Gives m0 s (enc w.length) (b + w.length) (F w.length).1 (F w.length).2 (k rest')) :
    Gives m0 s (enc 0) b (F 0).1 (F 0).2
      (let x := munch (litStep (litPat w)) 0 rest
       if x.1 = w.length then k x.2.2 else bad ek (b + x.1)) := by
  obtain ⟨hT1, hT2, hT3, hT4⟩ := hT
  have H := munch_sim (m0 := m0) (s := s) (litStep (litPat w)) enc
    (fun i p pb o => p = b + i ∧ i ≤ w.length ∧ pb = (F i).1 ∧ o = (F i).2 ∧ sl s b p = w.take i)
    (by
      rintro i j c p pb o ⟨rfl, hi, rfl, rfl, hsl⟩ hc hs
      obtain ⟨hw, rfl⟩ := litStep_some.mp hs
      have hlt := lt_of_get hw
      have hlt' := lt_of_get hc
      have ht := hT1 i hlt c hw
      refine ⟨(F (i + 1)).1, (F (i + 1)).2, ⟨by omega, hlt, rfl, rfl, ?_⟩, (hT4 i (by omega)).1, by rw [ht],
        (hT4 (i + 1) (by omega)).1, (hT4 (i + 1) (by omega)).2, ?_⟩
      · rw [sl_succ hc (by omega), hsl, List.take_add_one, hw]; rfl
      · rw [ht]; exact hF i hlt hlt' hsl)
    rest 0 b (F 0).1 (F 0).2 hd ⟨rfl, by omega, rfl, rfl, by rw [sl_self]; simp⟩
  obtain ⟨pb', o', ⟨hp, hi, rfl, rfl, hsl⟩, hd', hE'⟩ := H
  have hle := munch_le (stp := litStep (litPat w)) (q := 0) hd hb
  refine Gives.munch hle hE' ?_
  have happ := munch_append (litStep (litPat w)) 0 rest
  have hst := lit_state (litPat w) rest 0
  have hstop := fun c t => munch_stop (litStep (litPat w)) 0 rest (c := c) (t := t)
  generalize munch (litStep (litPat w)) 0 rest = x at *
  obtain ⟨i, v, r⟩ := x
  simp only at *
  have hiv : v.length = i := by omega
  rw [hiv] at hle hsl hd' ⊢
  by_cases h : i = w.length
  · subst h
    simp only [if_true]
    exact hk r hd' hle (by rw [hsl]; simp)
  · simp only [h, if_false]
    cases r with
    | nil =>
      have : s.length = b + i := by have := length_of_drop hd' hle; simpa using this
      exact Gives.eofBad (by omega) (hT3 i (by omega)) (hE _ _ _ _)
    | cons c t =>
      obtain ⟨hc, _⟩ := drop_cons hd'
      have hs := litStep_none.mp (hstop c t rfl)
      have hf : from_ ≤ i := by
        apply Nat.le_of_not_lt
        intro hlt
        apply hs
        apply hfrom i hlt
        rw [← hd, List.getElem?_drop]; exact hc
      refine Gives.bad hc (hT4 i (by omega)).1 ?_
      rw [hT2 i (by omega) hf c hs]
      exact hE _ _ _ _

theorem alnum_noPct {w : Bytes} (h : ∀ c ∈ w, isAlnum c = true) : ∀ c ∈ w, c ≠ 37 := by
  rintro c hc rfl
  have := h _ hc
  simp [show isAlnum 37 = false by decide] at this

theorem otherRaise {q : Nss} {cs p : Nat} {pb : Int} {o : URN} (hp : p ≠ s.length) :
    Raises m0 s (otherErr q) cs p pb o ⟨nssErr (flagsOf m0.parsingMode).hx .scimOther q, p⟩ := by
  have h : ∀ cs pb o, Raises m0 s [.errScimOther] cs p pb o ⟨.scimOther, p⟩ := by
    intro cs pb o
    refine ⟨pb, o, exec_cons_again ?_⟩
    have : ¬ (p : Int) = s.length := by omega
    simp only [execAct, mk, this, if_false]; rfl
  cases q
  case start => exact h _ _ _
  case plain => exact h _ _ _
  all_goals exact raises_hex (fun _ => h _ _ _)

theorem otherRaiseEof {q : Nss} {cs : Nat} {pb : Int} {o : URN} (hq : q.ok = false) :
    Raises m0 s (otherErr q) cs s.length pb o
      (if (flagsOf m0.parsingMode).hx = true ∧ q ≠ .start then ⟨.hex, s.length⟩
       else ⟨.scimOtherIncomplete, (s.length : Int) - 1⟩) := by
  have h : ∀ cs pb o, Raises m0 s [.errScimOther] cs s.length pb o ⟨.scimOtherIncomplete, (s.length : Int) - 1⟩ := by
    intro cs pb o
    refine ⟨pb, o, exec_cons_again ?_⟩
    simp only [execAct, mk, if_true]; rfl
  have h2 : Raises m0 s [.errHex, .errScimOther] cs s.length pb o
      (if (flagsOf m0.parsingMode).hx = true then ⟨.hex, s.length⟩
       else ⟨.scimOtherIncomplete, (s.length : Int) - 1⟩) := by
    by_cases hx : (flagsOf m0.parsingMode).hx = true
    · rw [if_pos hx]
      have := raises_hex (m0 := m0) (s := s) (as := [.errScimOther]) (cs := cs) (p := s.length) (pb := pb)
        (o := o) (k := .hex) (fun h => by rw [h] at hx; simp at hx)
      rw [hx] at this
      exact this
    · rw [if_neg hx]
      obtain ⟨pb', o', h⟩ := h cs pb o
      refine ⟨pb', o', ?_⟩
      rw [hex_skip (by simpa using hx)]
      exact h
  cases q
  case start => simp only [ne_eq, not_true, and_false, if_false]; exact h _ _ _
  case plain => simp [Nss.ok] at hq
  case ah => simp [Nss.ok] at hq
  case h1 => simp only [ne_eq, reduceCtorEq, not_false_eq_true, and_true]; exact h2
  case h2 => simp only [ne_eq, reduceCtorEq, not_false_eq_true, and_true]; exact h2

/-- Running the last part. -/
theorem other_run {b : Nat} {pre kw name other : Bytes} {ty : SchemaType} {ps : Int}
    (hd : s.drop b = other) (hb : b ≤ s.length)
    (hkw : ∀ c ∈ kw, c ≠ 37) (hname : ∀ c ∈ name, isAlnum c = true)
    (hbl : b = 21 + (kw.length + 1 + name.length + 1))
    (hsl0 : sl s 21 b = kw ++ 58 :: (name ++ [58])) :
    Gives m0 s 70 b 21
      { «prefix» := pre, ID := lit "ietf:params:scim", scim := some { Typ := ty, Name := name, pos := ps } }
      (refScimOther (flagsOf m0.parsingMode).hx pre kw ty name other b) := by
  obtain ⟨pb', o', hJ, hd', hE⟩ := nss_sim (m0 := m0) (s := s) otherTab (b := b) (pb0 := 21)
    (o0 := { «prefix» := pre, ID := lit "ietf:params:scim", scim := some { Typ := ty, Name := name, pos := ps } })
    (pb1 := 21) (k0 := kw.length + 1 + name.length + 1)
    (o1 := { «prefix» := pre, ID := lit "ietf:params:scim", scim := some { Typ := ty, Name := name, pos := b } }) hbl
    (fun cs => exec_cons_next (act_markScim (sc := { Typ := ty, Name := name, pos := ps }) rfl)) other hd
  have hle := munch_le (stp := nssStep isSss isSss) (q := .start) hd hb
  refine Gives.munch hle hE ?_
  have happ := munch_append (nssStep isSss isSss) .start other
  have hstop := fun c t => munch_stop (nssStep isSss isSss) .start other (c := c) (t := t)
  unfold refScimOther
  generalize munch (nssStep isSss isSss) .start other = x at *
  obtain ⟨q, w, r⟩ := x
  simp only at *
  cases r with
  | nil =>
    have hlen : b + w.length = s.length := by have := length_of_drop hd' hle; simp at this; omega
    simp only [List.append_nil] at happ
    subst happ
    have hsl : sl s b (b + w.length) = w := sl_of_drop (r := []) (by rw [hd]; simp)
    have hpct : ∀ c ∈ kw ++ 58 :: (name ++ [58]), c ≠ 37 := by
      intro c hc
      simp only [List.mem_append, List.mem_cons, List.not_mem_nil, or_false] at hc
      rcases hc with h | rfl | h | rfl
      · exact hkw c h
      · decide
      · exact alnum_noPct hname c h
      · decide
    have hsl2 : sl s 21 (b + w.length) = (kw ++ 58 :: (name ++ [58])) ++ w := by
      have h1 : s.drop 21 = sl s 21 b ++ s.drop b := by
        rw [sl, show s.drop b = (s.drop 21).drop (b - 21) by rw [List.drop_drop]; congr 1; omega]
        exact (List.take_append_drop _ _).symm
      rw [hsl0, hd] at h1
      have := sl_of_drop (r := []) (s := s) (b := 21) (w := (kw ++ 58 :: (name ++ [58])) ++ w) (by rw [h1]; simp)
      rw [← this]
      congr 1
      simp
      omega
    by_cases hok : q.ok = true
    · have hns : q ≠ .start := by rintro rfl; simp [Nss.ok] at hok
      simp only [JN, hns, if_false] at hJ
      obtain ⟨hlt, _, rfl, rfl, _⟩ := hJ
      simp only [hok, if_true]
      refine Gives.eofOk hlen (otherEof q) (otherFinal q hok).1 (otherFinal q hok).2 (pb' := 21) ?_
      rw [hok]
      simp only [if_true]
      have e1 := act_setScimOther (m0 := m0) (s := s) (cs := otherEnc q) (p := b + w.length) (b := b) (pb := 21)
        (err := none)
        (o := { «prefix» := pre, ID := lit "ietf:params:scim", scim := some { Typ := ty, Name := name, pos := b },
                tolower := [] ++ ups .plain (kw.length + 1 + name.length + 1) (sl s b (b + w.length)) })
        (by omega) (by omega) rfl rfl
      have hlpre : (kw ++ 58 :: (name ++ [58])).length = kw.length + 1 + name.length + 1 := by simp; omega
      have e2 := act_setNss (m0 := m0) (s := s) (cs := otherEnc q) (p := b + w.length) (b := 21) (err := none)
        (o := { «prefix» := pre, ID := lit "ietf:params:scim",
                scim := some { Typ := ty, Name := name, Other := w, pos := b },
                tolower := [] ++ ups .plain (kw.length + 1 + name.length + 1) (sl s b (b + w.length)) })
        (by omega) (by omega)
        (by
          rw [hsl2, ups_append, ups_noPct hpct, escs_noPct hpct, hlpre, hsl]
          simp)
      rw [hsl] at e1 e2 ⊢
      refine (exec_cons_next e1).trans ?_
      refine (exec_cons_next e2).trans ?_
      rw [exec_cons_next act_scimType, exec_nil, hsl2, lowerGo_append, lowerGo_noPct hpct, escs_noPct hpct]
      simp
    · have hok' : q.ok = false := by simpa using hok
      have hr := otherRaiseEof (m0 := m0) (s := s) (q := q) (cs := otherEnc q) (pb := pb') (o := o') hok'
      simp only [if_true, hok', Bool.false_eq_true, if_false, hlen]
      have he := otherEof q
      rw [hok'] at he
      have := Ends.mono (Ends.eofBad he hr) (b' := 2 * (s.length - s.length) + 10) (by omega)
      unfold Gives
      by_cases hx : (flagsOf m0.parsingMode).hx = true ∧ q ≠ .start
      · rw [if_pos hx] at this ⊢; exact this
      · rw [if_neg hx] at this ⊢; exact this
  | cons c t =>
    obtain ⟨hc, _⟩ := drop_cons hd'
    have hs := hstop c t rfl
    simp only [List.cons_ne_nil, if_false]
    refine Gives.bad hc (otherTab q c).1 ?_
    rw [otherBad q c hs]
    exact otherRaise (by have := lt_of_get hc; omega)

theorem name_ne_false {l : Bytes} : (munch nameStep true l).1 = true := by
  induction l with
  | nil => rfl
  | cons c r ih =>
    simp only [munch]
    cases h : nameStep true c with
    | none => rfl
    | some q =>
      have : q = true := by
        simp only [nameStep] at h
        split at h <;> simp_all
      subst this
      exact ih

/-- Running the name. -/
theorem name_run {b : Nat} {pre kw rest : Bytes} {ty : SchemaType}
    (hd : s.drop b = rest) (hb : b ≤ s.length) (hkw : ∀ c ∈ kw, c ≠ 37)
    (hbl : b = 21 + (kw.length + 1)) (hsl0 : sl s 21 b = kw ++ [58]) :
    Gives m0 s 69 b 21
      { «prefix» := pre, ID := lit "ietf:params:scim", scim := some { Typ := ty } }
      (refScimName (flagsOf m0.parsingMode).hx pre kw ty rest b) := by
  have H := munch_sim (m0 := m0) (s := s) nameStep nameEnc
    (fun q p pb o => pb = 21 ∧ (∀ c ∈ sl s b p, isAlnum c = true) ∧
      if q then b < p ∧ o = { «prefix» := pre, ID := lit "ietf:params:scim", scim := some { Typ := ty, pos := b } }
      else p = b ∧ o = { «prefix» := pre, ID := lit "ietf:params:scim", scim := some { Typ := ty } })
    (by
      rintro q q' c p pb o ⟨rfl, hal, hq⟩ hc hs
      have ht := nameTab q c
      have hac : isAlnum c = true ∧ q' = true := by
        simp only [nameStep] at hs
        split at hs <;> simp_all
      obtain ⟨hac, rfl⟩ := hac
      rw [if_pos hac] at ht
      have hbp : b ≤ p := by
        cases q
        · simp at hq; omega
        · simp at hq; omega
      refine ⟨21, { «prefix» := pre, ID := lit "ietf:params:scim", scim := some { Typ := ty, pos := b } }, ⟨rfl, ?_, ?_⟩,
        by cases q <;> decide, by rw [ht]; rfl, by decide, by decide, ?_⟩
      · rw [sl_succ hc hbp]
        intro d hd
        simp only [List.mem_append, List.mem_cons, List.not_mem_nil, or_false] at hd
        rcases hd with h | rfl
        · exact hal d h
        · exact hac
      · simp only [if_true]; exact ⟨by omega, trivial⟩
      · rw [ht]
        cases q
        · simp only [Bool.false_eq_true, if_false] at hq
          obtain ⟨rfl, rfl⟩ := hq
          exact exec_cons_next (act_markScim (sc := { Typ := ty }) rfl)
        · simp only [if_true] at hq
          obtain ⟨_, rfl⟩ := hq
          rfl)
    rest false b 21 _ hd ⟨rfl, by rw [sl_self]; simp, by simp only [Bool.false_eq_true, if_false]; exact ⟨trivial, rfl⟩⟩
  obtain ⟨pb', o', ⟨rfl, hal, hq⟩, hd', hE⟩ := H
  have hle := munch_le (stp := nameStep) (q := false) hd hb
  refine Gives.munch hle hE ?_
  have happ := munch_append nameStep false rest
  have hstop := fun c t => munch_stop nameStep false rest (c := c) (t := t)
  unfold refScimName
  generalize munch nameStep false rest = x at *
  obtain ⟨q, w, r⟩ := x
  simp only at *
  have hsl : sl s b (b + w.length) = w := sl_of_drop (by rw [hd, ← happ])
  rw [hsl] at hal
  have hslk : ∀ r', s.drop b = w ++ r' → sl s 21 (b + w.length) = kw ++ 58 :: w := by
    intro r' hr'
    have h1 : s.drop 21 = sl s 21 b ++ s.drop b := by
      rw [sl, show s.drop b = (s.drop 21).drop (b - 21) by rw [List.drop_drop]; congr 1; omega]
      exact (List.take_append_drop _ _).symm
    rw [hsl0, hr'] at h1
    have := sl_of_drop (r := r') (s := s) (b := 21) (w := kw ++ 58 :: w) (by rw [h1]; simp)
    rw [← this]
    congr 1
    simp
    omega
  cases q with
  | false =>
    simp only [Bool.false_eq_true, if_false] at hq ⊢
    obtain ⟨hw, rfl⟩ := hq
    rw [hw] at hle hd' ⊢
    cases r with
    | nil =>
      have : s.length = b := by have := length_of_drop hd' hle; simpa using this
      exact Gives.eofBad (acts := [.errScimName]) (by omega) rfl (raises_of (fun _ _ => rfl))
    | cons c t =>
      obtain ⟨hc, _⟩ := drop_cons hd'
      have hs := hstop c t rfl
      have ht := nameTab false c
      have hna : ¬ isAlnum c = true := by
        intro h; simp [nameStep, h] at hs
      rw [if_neg hna, if_neg (by simp)] at ht
      refine Gives.bad hc (by decide) ?_
      rw [ht]
      exact raises_of (fun _ _ => rfl)
  | true =>
    simp only [if_true] at hq ⊢
    obtain ⟨hlt, rfl⟩ := hq
    cases r with
    | nil =>
      have hlen : b + w.length = s.length := by have := length_of_drop hd' hle; simp at this; omega
      simp only [List.append_nil] at happ
      subst happ
      have hsk := hslk [] (by rw [hd]; simp)
      have hpct : ∀ c ∈ kw ++ 58 :: w, c ≠ 37 := by
        intro c hc
        simp only [List.mem_append, List.mem_cons] at hc
        rcases hc with h | rfl | h
        · exact hkw c h
        · decide
        · exact alnum_noPct hal c h
      refine Gives.eofOk (acts := [.setScimName, .setNss, .scimType]) hlen rfl (by decide) (by decide) (pb' := 21) ?_
      have e1 := act_setScimName (m0 := m0) (s := s) (cs := 174) (p := b + w.length) (b := b) (pb := 21)
        (err := none)
        (o := { «prefix» := pre, ID := lit "ietf:params:scim", scim := some { Typ := ty, pos := b } })
        (by omega) (by omega) rfl rfl
      have e2 := act_setNss (m0 := m0) (s := s) (cs := 174) (p := b + w.length) (b := 21) (err := none)
        (o := { «prefix» := pre, ID := lit "ietf:params:scim", scim := some { Typ := ty, Name := w, pos := b } })
        (by omega) (by omega) (by rw [hsk, ups_noPct hpct])
      refine (exec_cons_next e1).trans ?_
      rw [hsl]
      refine (exec_cons_next e2).trans ?_
      rw [exec_cons_next act_scimType, exec_nil, hsk, lowerGo_noPct hpct]
      rfl
    | cons c t =>
      obtain ⟨hc, hd2⟩ := drop_cons hd'
      have hs := hstop c t rfl
      have ht := nameTab true c
      have hna : ¬ isAlnum c = true := by
        intro h; simp [nameStep, h] at hs
      rw [if_neg hna] at ht
      simp only
      by_cases h58 : c = 58
      · rw [if_pos h58]
        rw [if_pos ⟨h58, rfl⟩] at ht
        subst h58
        have hlt' := lt_of_get hc
        refine Gives.char (t := 70) (pb' := 21)
          (o' := { «prefix» := pre, ID := lit "ietf:params:scim", scim := some { Typ := ty, Name := w, pos := b } }) hc
          ⟨by decide, by rw [ht], by decide, by decide, ?_⟩ ?_
        · rw [ht]
          have e1 := act_setScimName (m0 := m0) (s := s) (cs := 70) (p := b + w.length) (b := b) (pb := 21)
            (err := none)
            (o := { «prefix» := pre, ID := lit "ietf:params:scim", scim := some { Typ := ty, pos := b } })
            (by omega) (by omega) rfl rfl
          rw [hsl] at e1
          exact exec_cons_next e1
        · refine other_run (ps := b) hd2 (by omega) hkw hal (by omega) ?_
          rw [sl_succ hc (by omega), hslk (58 :: t) (by rw [hd, happ])]
          simp
      · rw [if_neg h58]
        rw [if_neg (by simp [h58])] at ht
        refine Gives.bad hc (by decide) ?_
        rw [show nameEnc true = 174 from rfl] at ht ⊢
        rw [ht]
        exact raises_of (fun _ _ => rfl)

/-- The states, and the keyword, announced by the first byte. -/
theorem type_run_kw {pre rest kw : Bytes} {ty : SchemaType} {enc : Nat → Nat}
    (hT : LitTab (kw ++ lit ":") enc (kwActs kw.length) [.errScimType] 1)
    (h0 : enc 0 = 65) (hend : enc (kw.length + 1) = 69)
    (hty : SchemaType.fromString kw = ty) (hkw : ∀ c ∈ kw, c ≠ 37) (hne : kw ≠ [])
    (hd : s.drop 21 = rest) (hb : 21 ≤ s.length) (hfst : rest.head? = kw.head?) :
    Gives m0 s 65 21 4 { «prefix» := pre, ID := lit "ietf:params:scim", scim := some {} }
      (let y := munch (litStep (litPat (kw ++ lit ":"))) 0 rest
       if y.1 = kw.length + 1 then
         refScimName (flagsOf m0.parsingMode).hx pre kw ty y.2.2 (21 + kw.length + 1)
       else bad .scimType (21 + y.1)) := by
  have hlen : (kw ++ lit ":").length = kw.length + 1 := by simp [lit]
  have hkl : kw.length ≠ 0 := by simp [hne]
  have hl : lit ":" = [58] := by decide
  have H := lit_sim (m0 := m0) (s := s) hT (b := 21)
    (fun i => (if i = 0 then 4 else 21,
      { «prefix» := pre, ID := lit "ietf:params:scim",
        scim := some (if i = kw.length + 1 then { Typ := ty } else {}) }))
    (by
      intro i hi hlt hsl
      rw [hlen] at hi
      have hne1 : i ≠ kw.length + 1 := by omega
      simp only [hne1, if_false]
      by_cases hi0 : i = 0
      · subst hi0
        have h2 : kwActs kw.length 0 = [.mark] := rfl
        have h3 : ¬ (0 + 1 = kw.length + 1) := by omega
        rw [h2, if_neg h3]
        rfl
      · by_cases hil : i = kw.length
        · subst hil
          have h2 : kwActs kw.length kw.length = [.setScimType] := by simp [kwActs, hne]
          have h3 : ¬ (kw.length + 1 = 0) := by omega
          have h4 : sl s 21 (21 + kw.length) = kw := by rw [hsl]; simp
          have e := act_setScimType (m0 := m0) (s := s) (cs := enc (kw.length + 1)) (p := 21 + kw.length) (b := 21)
            (err := none) (o := { «prefix» := pre, ID := lit "ietf:params:scim", scim := some {} }) (sc := {})
            (by omega) (by omega) rfl
          rw [h4, hty] at e
          rw [h2]
          simp only [hi0, h3, if_false, if_true]
          exact exec_cons_next e
        · have h2 : kwActs kw.length i = [] := by simp [kwActs, hi0, hil]
          have h3 : ¬ (i + 1 = 0) := by omega
          have h4 : ¬ (i + 1 = kw.length + 1) := by omega
          rw [h2]
          simp only [hi0, h3, h4, if_false]
          rfl)
    rest hd hb (ek := .scimType) (fun _ _ _ _ => raises_of (fun _ _ => rfl))
    (by
      intro i hi c hc
      have : i = 0 := by omega
      subst this
      cases kw with
      | nil => exact absurd rfl hne
      | cons a kw =>
        rw [← List.head?_eq_getElem?] at hc ⊢
        rw [hfst] at hc
        exact hc)
    (k := fun rest' => refScimName (flagsOf m0.parsingMode).hx pre kw ty rest' (21 + kw.length + 1))
    (by
      intro rest' hd' hle hsl
      rw [hlen] at hd' hle hsl ⊢
      simp only [if_true, hend]
      have h3 : ¬ (kw.length + 1 = 0) := by omega
      simp only [h3, if_false]
      exact name_run (b := 21 + (kw.length + 1)) hd' hle hkw rfl (by rw [hsl, hl]))
  have h3 : ¬ (0 = kw.length + 1) := by omega
  simp only [h3, if_false, h0, if_true, hlen] at H
  exact H

/-- Running the type. -/
theorem type_run {pre rest : Bytes} (hd : s.drop 21 = rest) (hb : 21 ≤ s.length) :
    Gives m0 s 65 21 4 { «prefix» := pre, ID := lit "ietf:params:scim", scim := some {} }
      (refScimType (flagsOf m0.parsingMode).hx pre rest) := by
  unfold refScimType
  cases rest with
  | nil =>
    simp only [List.head?_nil, Option.bind_none]
    have : s.length = 21 := by have := length_of_drop hd hb; simpa using this
    exact Gives.eofBad (acts := [.errScimType]) (by omega) rfl (raises_of (fun _ _ => rfl))
  | cons c r =>
    obtain ⟨hc, _⟩ := drop_cons hd
    simp only [List.head?_cons, Option.bind_some]
    cases hk : kwOf c with
    | none =>
      refine Gives.bad hc (by decide) ?_
      rw [kwBad c hk]
      exact raises_of (fun _ _ => rfl)
    | some x =>
      have : (x = (lit "api", SchemaType.API) ∧ c = 97) ∨ (x = (lit "param", SchemaType.Param) ∧ c = 112) ∨
          (x = (lit "schemas", SchemaType.Schemas) ∧ c = 115) := by
        simp only [kwOf] at hk
        split at hk
        · simp_all
        · split at hk
          · simp_all
          · split at hk
            · simp_all
            · simp at hk
      rcases this with ⟨rfl, rfl⟩ | ⟨rfl, rfl⟩ | ⟨rfl, rfl⟩
      · exact type_run_kw (enc := apiEnc) apiTab rfl rfl (by decide) (by decide) (by decide) hd hb (by rfl)
      · exact type_run_kw (enc := paramEnc) paramTab rfl rfl (by decide) (by decide) (by decide) hd hb (by rfl)
      · exact type_run_kw (enc := schemasEnc) schemasTab rfl rfl (by decide) (by decide) (by decide) hd hb (by rfl)

/-- Running the namespace. -/
theorem ns_run {pre rest : Bytes} (hd : s.drop 4 = rest) (hb : 4 ≤ s.length) :
    Gives m0 s 48 4 0 { «prefix» := pre } (refScimNs (flagsOf m0.parsingMode).hx pre rest) := by
  have hlen : (lit "ietf:params:scim:").length = 17 := by decide
  have H := lit_sim (m0 := m0) (s := s) nsTab (b := 4)
    (fun i => (if i = 0 then 0 else 4,
      if i = 17 then { «prefix» := pre, ID := lit "ietf:params:scim", scim := some {} } else { «prefix» := pre }))
    (by
      intro i hi hlt hsl
      rw [hlen] at hi
      have hne1 : i ≠ 17 := by omega
      simp only [hne1, if_false]
      by_cases hi0 : i = 0
      · subst hi0; rfl
      · by_cases h16 : i = 16
        · subst h16
          have e := act_setNid (m0 := m0) (s := s) (cs := 48 + (16 + 1)) (p := 4 + 16) (b := 4) (err := none)
            (o := { «prefix» := pre }) (by omega) (by omega)
          rw [hsl, show List.take 16 (lit "ietf:params:scim:") = lit "ietf:params:scim" by decide] at e
          exact exec_cons_next e
        · have h2 : nsActs i = [] := by simp [nsActs, hi0, h16]
          have h3 : ¬ (i + 1 = 0) := by omega
          have h4 : ¬ (i + 1 = 17) := by omega
          rw [h2]
          simp only [hi0, h3, h4, if_false]
          rfl)
    rest hd hb (ek := .scimNamespace) (fun _ _ _ _ => raises_of (fun _ _ => rfl)) (by omega)
    (k := fun rest' => refScimType (flagsOf m0.parsingMode).hx pre rest')
    (by
      intro rest' hd' hle hsl
      rw [hlen] at hd' hle ⊢
      exact type_run hd' hle)
  rw [hlen] at H
  exact H

theorem runScim : Gives m0 s 44 0 0 {} (refScim (flagsOf m0.parsingMode) s) :=
  prefix_run preTab44 (fun _ hd hl => ns_run hd hl)

end Urn
