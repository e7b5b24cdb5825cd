import Verif.Tab8141b
import Verif.Run2141
/-!
# The components of RFC 8141: the automaton computes `refF`, `refQ`, `refR`
-/
namespace Urn
open Tables Spec

variable {m0 : Machine} {s : Bytes}

/-! ## Fragment -/

theorem fFinal : ∀ q : Nss, (q = .start ∨ q.ok = true) → 172 ≤ fEnc q ∧ fEnc q ≠ 193 := by
  intro q; cases q <;> decide

theorem f_run {b : Nat} {pb : Int} {o : URN} {rest : Bytes} (hd : s.drop b = rest) (hb : b ≤ s.length) :
    Gives m0 s 178 b pb o (refF (flagsOf m0.parsingMode).hx o rest b) := by
  obtain ⟨pb', o', hJ, hd', hE⟩ := nss_sim (m0 := m0) (s := s) fTab (b := b) (pb0 := pb) (o0 := o)
    (pb1 := b) (k0 := 0) (o1 := o) rfl (fun cs => rfl) rest hd
  have hle := munch_le (stp := nssStep isPcharSlashQ isPcharSlashQ) (q := .start) hd hb
  refine Gives.munch hle hE ?_
  have happ := munch_append (nssStep isPcharSlashQ isPcharSlashQ) .start rest
  have hstop := fun c t => munch_stop (nssStep isPcharSlashQ isPcharSlashQ) .start rest (c := c) (t := t)
  have hz := nss_length_zero (first := isPcharSlashQ) (cls := isPcharSlashQ) (l := rest)
  unfold refF
  generalize munch (nssStep isPcharSlashQ isPcharSlashQ) .start rest = x at *
  obtain ⟨q, w, r⟩ := x
  simp only at *
  cases r with
  | nil =>
    have hlen : b + w.length = s.length := by have := length_of_drop hd' hle; simp at this; omega
    simp only [List.append_nil] at happ
    subst happ
    have hsl : sl s b (b + w.length) = w := sl_of_drop (r := []) (by rw [hd]; simp)
    by_cases hst : q = .start
    · subst hst
      have hw := hz rfl
      subst hw
      simp only [JN, if_true] at hJ
      obtain ⟨_, rfl, rfl⟩ := hJ
      simp only [true_or, and_self, if_true]
      refine Gives.eofOk hlen (fEof _) (by decide) (by decide) (pb' := b) ?_
      simp only [if_true]
      rw [exec_cons_next act_mark]
      have h := act_setF (m0 := m0) (s := s) (cs := 178) (p := b) (b := b) (err := none) (o := o') (by omega) (by omega)
      rw [sl_self] at h
      refine (exec_cons_next h).trans ((exec_cons_next act_8141).trans ?_)
      simp [exec_nil, ups]
      rfl
    · simp only [JN, hst, if_false] at hJ
      obtain ⟨hlt, _, rfl, rfl, _⟩ := hJ
      by_cases hok : q.ok = true
      · simp only [hok, or_true, and_self, if_true]
        refine Gives.eofOk hlen (fEof _) (fFinal q (Or.inr hok)).1 (fFinal q (Or.inr hok)).2 (pb' := b) ?_
        simp only [hst, if_false, hok, if_true]
        have h := fun o => act_setF (m0 := m0) (s := s) (cs := fEnc q) (p := b + w.length) (b := b) (err := none) (o := o) (by omega) (by omega)
        rw [hsl] at *
        exact (exec_cons_next (h _)).trans (by simp [exec_cons_next act_8141, exec_nil])
      · simp only [hok, hst, or_self, and_false, if_false, Bool.false_eq_true, true_and, ne_eq, not_false_eq_true]
        have hp : q ≠ .plain := by rintro rfl; simp [Nss.ok] at hok
        simp only [hp, not_false_eq_true, and_true]
        have ha : eofTab (fEnc q) = some [.errHex] := by rw [fEof]; simp [hst, hok]
        by_cases hx : (flagsOf m0.parsingMode).hx = true
        · rw [if_pos hx]
          have := raises_hex (m0 := m0) (s := s) (as := []) (cs := fEnc q) (p := b + w.length) (pb := b)
            (o := { o with tolower := o.tolower ++ ups .plain 0 (sl s b (b + w.length)) }) (k := .hex)
            (fun h => by rw [h] at hx; simp at hx)
          rw [hx] at this
          exact Gives.eofBad hlen ha this
        · rw [if_neg hx]
          refine Gives.eofNil hlen ha ?_ (by rw [hex_skip (by simpa using hx)]; exact exec_nil)
          cases q <;> simp_all [Nss.ok, fEnc]
  | cons c t =>
    obtain ⟨hc, _⟩ := drop_cons hd'
    have hs := hstop c t rfl
    have ht := fBad q c hs
    simp only [List.cons_ne_nil, false_and, if_false]
    by_cases hx : (flagsOf m0.parsingMode).hx = true ∧ q ≠ .start ∧ q ≠ .plain
    · rw [if_pos hx]
      refine Gives.bad hc (fTab q c).1 ?_
      rw [ht]
      simp only [hx.2.1, hx.2.2, or_self, if_false]
      have := raises_hex (m0 := m0) (s := s) (as := []) (cs := 0) (p := b + w.length) (pb := pb')
        (o := o') (k := .hex) (fun h => by rw [h] at hx; simp at hx)
      rw [hx.1] at this
      exact this
    · rw [if_neg hx]
      refine Gives.stop hc (fTab q c).1 (by rw [ht]) ?_
      rw [ht]
      by_cases hq : q = .start ∨ q = .plain
      · simp only [hq, if_true]
        exact ⟨_, exec_nil⟩
      · simp only [hq, if_false]
        have hx' : (flagsOf m0.parsingMode).hx = false := by
          by_cases h : (flagsOf m0.parsingMode).hx = true
          · exact absurd ⟨h, fun h => hq (Or.inl h), fun h => hq (Or.inr h)⟩ hx
          · simpa using h
        exact ⟨_, by rw [hex_skip hx']; exact exec_nil⟩

/-! ## q-component -/

theorem act_markQ {m : Machine} {o : URN} (h : o.qStart = false) :
    execAct .markQStart m o = .ok (.next, m, { o with qStart := true }) := by
  simp [execAct, h]

theorem act_markR {m : Machine} {o : URN} (h : o.rStart = false) :
    execAct .markRStart m o = .ok (.next, m, { o with rStart := true }) := by
  simp [execAct, h]

theorem raises_markQ {as : List Act} {cs p : Nat} {pb : Int} {o : URN} (h : o.qStart = true) :
    Raises m0 s (.markQStart :: as) cs p pb o ⟨.qComponentStart8141, p⟩ :=
  ⟨pb, o, exec_cons_again (by simp only [execAct, h, if_true]; rfl)⟩

theorem raises_markR {as : List Act} {cs p : Nat} {pb : Int} {o : URN} (h : o.rStart = true) :
    Raises m0 s (.markRStart :: as) cs p pb o ⟨.rComponentStart8141, p⟩ :=
  ⟨pb, o, exec_cons_again (by simp only [execAct, h, if_true]; rfl)⟩

theorem qRaise {q : Q} (hq : q ≠ .firstR) {cs p : Nat} {pb : Int} {o : URN} :
    Raises m0 s (qErrActs q) cs p pb o ⟨qErr (flagsOf m0.parsingMode).hx q, p⟩ := by
  cases q <;> first
    | exact absurd rfl hq
    | exact raises_of (fun _ _ => rfl)
    | exact raises_hex (fun _ => raises_of (fun _ _ => rfl))

theorem rRaise {q : R} {cs p : Nat} {pb : Int} {o : URN} :
    Raises m0 s (rErrActs q) cs p pb o ⟨rErr (flagsOf m0.parsingMode).hx q, p⟩ := by
  cases q <;> first
    | exact raises_of (fun _ _ => rfl)
    | exact raises_hex (fun _ => raises_of (fun _ _ => rfl))

theorem qStep_esc {q q' : Q} {c : UInt8} (h : qStep q c = some q') :
    q'.init = false ∧ q'.esc = q.esc.adv c := by
  have hp : isPchar 37 = false := by decide
  have hs : isPcharSlash 37 = false := by decide
  cases q <;> simp only [qStep] at h <;> (repeat' split at h) <;>
    simp only [Option.some.injEq, reduceCtorEq] at h <;> subst h <;>
    simp_all [Q.esc, Q.init, Esc.adv]

theorem rStep_esc {q q' : R} {c : UInt8} (h : rStep q c = some q') :
    q' ≠ .first ∧ q'.esc = q.esc.adv c := by
  cases q <;> simp only [rStep] at h <;> (repeat' split at h) <;>
    simp only [Option.some.injEq, reduceCtorEq] at h <;> subst h <;>
    simp_all [R.esc, Esc.adv]

/-- Invariant of the q-component. -/
def JQ (s : Bytes) (b : Nat) (o0 : URN) (q : Q) (p : Nat) (pb : Int) (o : URN) : Prop :=
  if q.init then p = b ∧ o = o0
  else b < p ∧ p ≤ s.length ∧ pb = b ∧
    o = { o0 with qStart := true, tolower := o0.tolower ++ ups .plain 0 (sl s b p) } ∧
    escs .plain (sl s b p) = q.esc

theorem sl_one {p : Nat} {c : UInt8} (hc : s[p]? = some c) : sl s p (p + 1) = [c] := by
  rw [sl_succ hc (Nat.le_refl _), sl_self]; rfl

theorem q_step {b : Nat} {o0 : URN} (ho : o0.qStart = false) (q q' : Q) (c : UInt8) (p : Nat) (pb : Int) (o : URN)
    (hJ : JQ s b o0 q p pb o) (hc : s[p]? = some c) (hs : qStep q c = some q') :
    ∃ pb' o', JQ s b o0 q' (p + 1) pb' o' ∧ Trans m0 s q.enc c p pb o q'.enc pb' o' := by
  have hlt := lt_of_get hc
  have ht := qTab q c (Or.inr (by rw [hs]; simp))
  obtain ⟨hi', he'⟩ := qStep_esc hs
  simp only [qRow, hs] at ht
  by_cases hi : q.init = true
  · simp only [JQ, hi, if_true] at hJ ht
    obtain ⟨rfl, rfl⟩ := hJ
    refine ⟨p, { o with qStart := true }, ?_, (qState q).1, by rw [ht], (qState q').1, (qState q').2, ?_⟩
    · simp only [JQ, hi', Bool.false_eq_true, if_false, sl_one hc]
      refine ⟨by omega, by omega, trivial, by simp [ups], ?_⟩
      rw [he']
      have : q.esc = .plain := by cases q <;> first | rfl | simp [Q.init] at hi
      rw [this]; rfl
    · rw [ht, exec_cons_next (act_markQ ho), exec_cons_next act_mark, exec_nil]
  · simp only [JQ, hi, Bool.false_eq_true, if_false] at hJ ht
    obtain ⟨hb, hle, rfl, rfl, hesc⟩ := hJ
    have hsl := sl_succ hc (Nat.le_of_lt hb)
    have hln := sl_length (s := s) (b := b) (p := p) hle
    refine ⟨b, { o0 with qStart := true, tolower := o0.tolower ++ ups .plain 0 (sl s b (p + 1)) }, ?_,
      (qState q).1, by rw [ht], (qState q').1, (qState q').2, ?_⟩
    · simp only [JQ, hi', Bool.false_eq_true, if_false]
      exact ⟨by omega, by omega, trivial, trivial, by rw [hsl, escs_snoc, hesc, he']⟩
    · rw [ht, hsl, ups_snoc, hesc, hln]
      simp only
      split
      · rw [exec_cons_next act_tolower, exec_nil]
        have e : (p : Int) - (b : Int) = ((0 + (p - b) : Nat) : Int) := by omega
        simp [e]
      · rw [exec_nil]; simp

theorem qq_run {b : Nat} {pb : Int} {o : URN} {rest : Bytes} (hd : s.drop b = rest) (hb : b ≤ s.length)
    (ho : o.qStart = true) : Gives m0 s 136 b pb o (refQQ rest b) := by
  unfold refQQ
  cases rest with
  | nil =>
    have hlen : b = s.length := by have := length_of_drop hd hb; simp at this; omega
    exact Gives.eofBad hlen (rfl : eofTab 136 = some [.errMalformedQ]) (raises_of (fun _ _ => rfl))
  | cons c t =>
    obtain ⟨hc, hd'⟩ := drop_cons hd
    have hlt := lt_of_get hc
    simp only
    by_cases h61 : c = 61
    · rw [if_pos h61]
      refine Gives.char (t := 192) (pb' := pb) (o' := o) hc
        ⟨by decide, by rw [qqTab, if_pos h61], by decide, by decide, by rw [qqTab, if_pos h61]; rfl⟩ ?_
      cases t with
      | nil =>
        have hlen : b + 1 = s.length := by have := length_of_drop hd' (by omega); simp at this; omega
        exact Gives.eofBad hlen (rfl : eofTab 192 = some [.markQStart, .setQComponent, .rfc8141Type]) (raises_markQ ho)
      | cons d t =>
        obtain ⟨hc', _⟩ := drop_cons hd'
        obtain ⟨t', as, ht⟩ := qqeTab d
        simp only
        by_cases h : startsAgain d = true
        · rw [if_pos h]
          refine Gives.bad hc' (by decide) ?_
          rw [ht]; simp only [h, if_true]; exact raises_markQ ho
        · rw [if_neg h]
          refine Gives.bad hc' (by decide) ?_
          rw [ht]; simp only [h, Bool.false_eq_true, if_false]; exact raises_of (fun _ _ => rfl)
    · rw [if_neg h61]
      refine Gives.bad hc (by decide) ?_
      rw [qqTab, if_neg h61]; exact raises_of (fun _ _ => rfl)

theorem qStep_ne_first {q : Q} (l : Bytes) (h : q.init = false) : (munch qStep q l).1.init = false := by
  induction l generalizing q with
  | nil => exact h
  | cons c r ih =>
    simp only [munch]
    cases hs : qStep q c with
    | none => exact h
    | some q' => exact ih (qStep_esc hs).1

/-- The scanner only stays in its initial state when it reads nothing. -/
theorem q_init {q : Q} {l : Bytes} (h : (munch qStep q l).1.init = true) :
    (munch qStep q l).1 = q ∧ (munch qStep q l).2.1 = [] := by
  cases l with
  | nil => exact ⟨rfl, rfl⟩
  | cons c r =>
    simp only [munch] at h ⊢
    cases hs : qStep q c with
    | none => exact ⟨rfl, rfl⟩
    | some q' =>
      simp only [hs] at h
      rw [qStep_ne_first r (qStep_esc hs).1] at h
      simp at h

/-- Running the q-component. -/
theorem q_run {b : Nat} {pb : Int} {o : URN} {q0 : Q} {rest : Bytes} (hd : s.drop b = rest) (hb : b ≤ s.length)
    (hq0 : q0 = .first ∨ (q0 = .firstR ∧ ∃ c t, rest = c :: t ∧ qStep .firstR c ≠ none))
    (ho : o.qStart = false) :
    Gives m0 s q0.enc b pb o (refQ (flagsOf m0.parsingMode).hx o q0 rest b) := by
  have hinit : q0.init = true := by rcases hq0 with h | ⟨h, _⟩ <;> subst h <;> rfl
  obtain ⟨pb', o', hJ, hd', hE⟩ := munch_sim (m0 := m0) (s := s) qStep Q.enc (JQ s b o) (q_step ho) rest q0 b pb o hd
    (by simp [JQ, hinit])
  have hle := munch_le (stp := qStep) (q := q0) hd hb
  refine Gives.munch hle hE ?_
  have happ := munch_append qStep q0 rest
  have hstop := fun c t => munch_stop qStep q0 rest (c := c) (t := t)
  have hz := q_init (q := q0) (l := rest)
  have hfR : (munch qStep q0 rest).1 ≠ .firstR := by
    intro h
    rcases hq0 with h0 | ⟨h0, c, t, rfl, hs⟩
    · have := (hz (by rw [h]; rfl)).1
      rw [h, h0] at this; simp at this
    · subst h0
      simp only [munch] at h
      cases hq : qStep .firstR c with
      | none => exact hs hq
      | some q' =>
        simp only [hq] at h
        have := qStep_ne_first t (qStep_esc hq).1
        rw [h] at this
        simp [Q.init] at this
  unfold refQ
  generalize munch qStep q0 rest = x at *
  obtain ⟨q, w, r⟩ := x
  simp only at *
  have hsl : sl s b (b + w.length) = w := sl_of_drop (by rw [hd, ← happ])
  have hnI : ∀ {q : Q}, q.canEnd = true → q.init = false := by intro q; cases q <;> decide
  cases r with
  | nil =>
    have hlen : b + w.length = s.length := by have := length_of_drop hd' hle; simp at this; omega
    by_cases hok : q.canEnd = true
    · simp only [JQ, hnI hok, Bool.false_eq_true, if_false] at hJ
      obtain ⟨_, _, rfl, rfl, _⟩ := hJ
      simp only [hok, if_true]
      refine Gives.eofOk hlen (qEof q hfR) (qFinal q hok).1 (qFinal q hok).2 (pb' := b) ?_
      simp only [hok, if_true]
      have h := fun o => act_setQ (m0 := m0) (s := s) (cs := q.enc) (p := b + w.length) (b := b) (err := none) (o := o) (by omega) (by omega)
      rw [hsl] at *
      exact (exec_cons_next (h _)).trans (by simp [exec_cons_next act_8141, exec_nil])
    · simp only [hok, Bool.false_eq_true, if_false]
      have ha := qEof q hfR
      simp only [hok, Bool.false_eq_true, if_false] at ha
      by_cases hqe : q = .qe
      · subst hqe
        simp only [JQ, Q.init, Bool.false_eq_true, if_false] at hJ
        obtain ⟨_, _, rfl, rfl, _⟩ := hJ
        simp only [if_true] at ha ⊢
        exact Gives.eofBad hlen ha (raises_markQ rfl)
      · simp only [hqe, if_false] at ha ⊢
        exact Gives.eofBad hlen ha (qRaise hfR)
  | cons c t =>
    obtain ⟨hc, hd2⟩ := drop_cons hd'
    have hlt := lt_of_get hc
    have hs := hstop c t rfl
    have ht := qTab q c (Or.inl hfR)
    simp only [qRow, hs] at ht
    simp only
    by_cases h35 : c = 35 ∧ q.canEnd = true
    · rw [if_pos h35] at ht ⊢
      simp only [JQ, hnI h35.2, Bool.false_eq_true, if_false] at hJ
      obtain ⟨_, _, rfl, rfl, _⟩ := hJ
      refine Gives.char (t := 178) (pb' := b)
        (o' := { o with qComponent := w, qStart := true, tolower := o.tolower ++ ups .plain 0 w }) hc
        ⟨(qState q).1, by rw [ht], by decide, by decide, ?_⟩ ?_
      · rw [ht]
        have h := fun o => act_setQ (m0 := m0) (s := s) (cs := 178) (p := b + w.length) (b := b) (err := none) (o := o) (by omega) (by omega)
        rw [hsl] at *
        exact (exec_cons_next (h _)).trans exec_nil
      · exact f_run hd2 (by omega)
    · rw [if_neg h35] at ht ⊢
      by_cases h63 : q = .first ∧ c = 63
      · rw [if_pos h63] at ht ⊢
        obtain ⟨rfl, rfl⟩ := h63
        have hw := (hz rfl).2
        subst hw
        simp only [JQ, Q.init, if_true] at hJ
        obtain ⟨_, rfl⟩ := hJ
        refine Gives.char (t := 136) (pb' := (b : Nat)) (o' := { o' with qStart := true }) hc
          ⟨by decide, by rw [ht], by decide, by decide, ?_⟩ ?_
        · rw [ht, exec_cons_next (act_markQ ho), exec_cons_next act_mark, exec_nil]; rfl
        · exact qq_run hd2 (by omega) rfl
      · rw [if_neg h63] at ht ⊢
        by_cases hqe : q = .qe ∧ startsAgain c = true
        · rw [if_pos hqe] at ht ⊢
          obtain ⟨rfl, hsa⟩ := hqe
          simp only [JQ, Q.init, Bool.false_eq_true, if_false] at hJ
          obtain ⟨_, _, rfl, rfl, _⟩ := hJ
          refine Gives.bad hc (by decide) ?_
          rw [ht]
          repeat' split
          all_goals exact raises_markQ rfl
        · rw [if_neg hqe] at ht ⊢
          refine Gives.bad hc (qState q).1 ?_
          rw [ht]
          exact qRaise hfR

/-! ## r-component -/

/-- Invariant of the r-component. -/
def JR (s : Bytes) (b : Nat) (o0 : URN) (q : R) (p : Nat) (pb : Int) (o : URN) : Prop :=
  if q = .first then p = b ∧ o = o0
  else b < p ∧ p ≤ s.length ∧ pb = b ∧
    (∃ x, o = { o0 with rStart := true, rComponent := x, tolower := o0.tolower ++ ups .plain 0 (sl s b p) } ∧
      (q = .qm → x = sl s b (p - 1)) ∧ (q = .qe → b + 2 ≤ p ∧ x = sl s b (p - 2))) ∧
    escs .plain (sl s b p) = q.esc

theorem rStep_qe {q : R} {c : UInt8} (h : rStep q c = some .qe) : q = .qm := by
  cases q <;> simp only [rStep] at h <;> (repeat' split at h) <;> simp_all

theorem rStep_qm {q : R} {c : UInt8} (h : rStep q c = some .qm) : q.esc = .plain := by
  cases q <;> simp only [rStep] at h <;> (repeat' split at h) <;> simp_all [R.esc]

theorem r_step {b : Nat} {o0 : URN} (ho : o0.rStart = false) (q q' : R) (c : UInt8) (p : Nat) (pb : Int) (o : URN)
    (hJ : JR s b o0 q p pb o) (hc : s[p]? = some c) (hs : rStep q c = some q') :
    ∃ pb' o', JR s b o0 q' (p + 1) pb' o' ∧ Trans m0 s q.enc c p pb o q'.enc pb' o' := by
  have hlt := lt_of_get hc
  have ht := rTab q c
  obtain ⟨hi', he'⟩ := rStep_esc hs
  simp only [rRow, hs] at ht
  by_cases hi : q = .first
  · subst hi
    simp only [JR, if_true] at hJ ht
    obtain ⟨rfl, rfl⟩ := hJ
    refine ⟨p, { o with rStart := true }, ?_, (rState _).1, by rw [ht], (rState q').1, (rState q').2, ?_⟩
    · simp only [JR, hi', if_false, sl_one hc]
      have hqm : q' ≠ .qm ∧ q' ≠ .qe := by
        simp only [rStep] at hs
        split at hs
        · simp at hs; subst hs; simp
        · split at hs
          · simp at hs; subst hs; simp
          · simp at hs
      refine ⟨by omega, by omega, trivial, ⟨o.rComponent, by simp [ups], fun h => absurd h hqm.1, fun h => absurd h hqm.2⟩, ?_⟩
      rw [he']; rfl
    · rw [ht, exec_cons_next (act_markR ho), exec_cons_next act_mark, exec_nil]
  · simp only [JR, hi, if_false] at hJ ht
    obtain ⟨hb, hle, rfl, ⟨x, rfl, hx1, hx2⟩, hesc⟩ := hJ
    have hsl := sl_succ hc (Nat.le_of_lt hb)
    have hln := sl_length (s := s) (b := b) (p := p) hle
    by_cases hqm : q' = .qm
    · subst hqm
      simp only [if_true] at ht
      have hup : ups .plain 0 (sl s b (p + 1)) = ups .plain 0 (sl s b p) := by
        rw [hsl, ups_snoc, hesc]
        simp [rStep_qm hs]
      refine ⟨b, { o0 with rStart := true, rComponent := sl s b p, tolower := o0.tolower ++ ups .plain 0 (sl s b (p + 1)) }, ?_,
        (rState q).1, by rw [ht], (rState _).1, (rState _).2, ?_⟩
      · simp only [JR, hi', if_false]
        exact ⟨by omega, by omega, trivial, ⟨_, rfl, fun _ => by simp, fun h => by simp at h⟩, by rw [hsl, escs_snoc, hesc, he']⟩
      · rw [ht, hup]
        exact (exec_cons_next (act_setR (by omega) (by omega))).trans exec_nil
    · simp only [hqm, if_false] at ht
      refine ⟨b, { o0 with rStart := true, rComponent := x, tolower := o0.tolower ++ ups .plain 0 (sl s b (p + 1)) }, ?_,
        (rState q).1, by rw [ht], (rState _).1, (rState _).2, ?_⟩
      · simp only [JR, hi', if_false]
        refine ⟨by omega, by omega, trivial, ⟨_, rfl, fun h => absurd h hqm, ?_⟩, by rw [hsl, escs_snoc, hesc, he']⟩
        rintro rfl
        have := hx1 (rStep_qe hs)
        exact ⟨by omega, by rw [this]; congr 1⟩
      · rw [ht, hsl, ups_snoc, hesc, hln]
        simp only
        split
        · rw [exec_cons_next act_tolower, exec_nil]
          have e : (p : Int) - (b : Int) = ((0 + (p - b) : Nat) : Int) := by omega
          simp [e]
        · rw [exec_nil]; simp

theorem rq_run {b : Nat} {pb : Int} {o : URN} {rest : Bytes} (hd : s.drop b = rest) (hb : b ≤ s.length)
    (ho : o.rStart = true) : Gives m0 s 133 b pb o (refRQ rest b) := by
  unfold refRQ
  cases rest with
  | nil =>
    have hlen : b = s.length := by have := length_of_drop hd hb; simp at this; omega
    exact Gives.eofBad hlen (rfl : eofTab 133 = some [.errMalformedR]) (raises_of (fun _ _ => rfl))
  | cons c t =>
    obtain ⟨hc, hd'⟩ := drop_cons hd
    have hlt := lt_of_get hc
    simp only
    by_cases h43 : c = 43
    · rw [if_pos h43]
      refine Gives.char (t := 191) (pb' := pb) (o' := o) hc
        ⟨by decide, by rw [rqqTab, if_pos h43], by decide, by decide, by rw [rqqTab, if_pos h43]; rfl⟩ ?_
      cases t with
      | nil =>
        have hlen : b + 1 = s.length := by have := length_of_drop hd' (by omega); simp at this; omega
        exact Gives.eofBad hlen (rfl : eofTab 191 = some [.markRStart, .setRComponent, .rfc8141Type]) (raises_markR ho)
      | cons d t =>
        obtain ⟨hc', _⟩ := drop_cons hd'
        obtain ⟨t', as, ht⟩ := rqpTab d
        simp only
        by_cases h : startsAgain d = true
        · rw [if_pos h]
          refine Gives.bad hc' (by decide) ?_
          rw [ht]; simp only [h, if_true]; exact raises_markR ho
        · rw [if_neg h]
          refine Gives.bad hc' (by decide) ?_
          rw [ht]; simp only [h, Bool.false_eq_true, if_false]; exact raises_of (fun _ _ => rfl)
    · rw [if_neg h43]
      refine Gives.bad hc (by decide) ?_
      rw [rqqTab, if_neg h43]; exact raises_of (fun _ _ => rfl)

theorem r_init {l : Bytes} (h : (munch rStep .first l).1 = .first) : (munch rStep .first l).2.1 = [] := by
  have key : ∀ l q, q ≠ .first → (munch rStep q l).1 ≠ .first := by
    intro l
    induction l with
    | nil => intro q hq; exact hq
    | cons c r ih =>
      intro q hq
      simp only [munch]
      cases hs : rStep q c with
      | none => exact hq
      | some q' => exact ih _ (rStep_esc hs).1
  cases l with
  | nil => rfl
  | cons c r =>
    simp only [munch] at h ⊢
    cases hs : rStep .first c with
    | none => rfl
    | some q' =>
      simp only [hs] at h
      exact absurd h (key _ _ (rStep_esc hs).1)

/-- Running the r-component. -/
theorem r_run {b : Nat} {pb : Int} {o : URN} {rest : Bytes} (hd : s.drop b = rest) (hb : b ≤ s.length)
    (ho : o.rStart = false) (ho2 : o.qStart = false) :
    Gives m0 s 126 b pb o (refR (flagsOf m0.parsingMode).hx o rest b) := by
  obtain ⟨pb', o', hJ, hd', hE⟩ := munch_sim (m0 := m0) (s := s) rStep R.enc (JR s b o) (r_step ho) rest .first b pb o hd
    (by simp [JR])
  have hle := munch_le (stp := rStep) (q := .first) hd hb
  refine Gives.munch hle hE ?_
  have happ := munch_append rStep .first rest
  have hstop := fun c t => munch_stop rStep .first rest (c := c) (t := t)
  have hz := r_init (l := rest)
  unfold refR
  generalize munch rStep .first rest = x at *
  obtain ⟨q, w, r⟩ := x
  simp only at *
  have hsl : sl s b (b + w.length) = w := sl_of_drop (by rw [hd, ← happ])
  have hnI : ∀ {q : R}, q.canEnd = true → q ≠ .first := by intro q; cases q <;> decide
  cases r with
  | nil =>
    have hlen : b + w.length = s.length := by have := length_of_drop hd' hle; simp at this; omega
    by_cases hok : q.canEnd = true
    · simp only [JR, hnI hok, if_false] at hJ
      obtain ⟨_, _, rfl, ⟨x, rfl, _, _⟩, _⟩ := hJ
      simp only [hok, if_true]
      refine Gives.eofOk hlen (rEof q) (rFinal q hok).1 (rFinal q hok).2 (pb' := b) ?_
      simp only [hok, if_true]
      have h := fun o => act_setR (m0 := m0) (s := s) (cs := q.enc) (p := b + w.length) (b := b) (err := none) (o := o) (by omega) (by omega)
      rw [hsl] at *
      exact (exec_cons_next (h _)).trans (by simp [exec_cons_next act_8141, exec_nil])
    · simp only [hok, Bool.false_eq_true, if_false]
      have ha := rEof q
      simp only [hok, Bool.false_eq_true, if_false] at ha
      by_cases hqe : q = .qp
      · subst hqe
        simp only [JR, reduceCtorEq, if_false] at hJ
        obtain ⟨_, _, rfl, ⟨x, rfl, _, _⟩, _⟩ := hJ
        simp only [if_true] at ha ⊢
        exact Gives.eofBad hlen ha (raises_markR rfl)
      · simp only [hqe, if_false] at ha ⊢
        exact Gives.eofBad hlen ha rRaise
  | cons c t =>
    obtain ⟨hc, hd2⟩ := drop_cons hd'
    have hlt := lt_of_get hc
    have hs := hstop c t rfl
    have ht := rTab q c
    simp only [rRow, hs] at ht
    simp only
    by_cases h35 : c = 35 ∧ q.canEnd = true
    · rw [if_pos h35] at ht ⊢
      simp only [JR, hnI h35.2, if_false] at hJ
      obtain ⟨_, _, rfl, ⟨x, rfl, _, _⟩, _⟩ := hJ
      refine Gives.char (t := 178) (pb' := b)
        (o' := { o with rComponent := w, rStart := true, tolower := o.tolower ++ ups .plain 0 w }) hc
        ⟨(rState q).1, by rw [ht], by decide, by decide, ?_⟩ ?_
      · rw [ht]
        have h := fun o => act_setR (m0 := m0) (s := s) (cs := 178) (p := b + w.length) (b := b) (err := none) (o := o) (by omega) (by omega)
        rw [hsl] at *
        exact (exec_cons_next (h _)).trans exec_nil
      · exact f_run hd2 (by omega)
    · rw [if_neg h35] at ht ⊢
      by_cases h63 : q = .first ∧ c = 63
      · rw [if_pos h63] at ht ⊢
        obtain ⟨rfl, rfl⟩ := h63
        have hw := hz rfl
        subst hw
        simp only [JR, if_true] at hJ
        obtain ⟨_, rfl⟩ := hJ
        refine Gives.char (t := 133) (pb' := (b : Nat)) (o' := { o' with rStart := true }) hc
          ⟨by decide, by rw [ht], by decide, by decide, ?_⟩ ?_
        · rw [ht, exec_cons_next (act_markR ho), exec_cons_next act_mark, exec_nil]; rfl
        · exact rq_run hd2 (by omega) rfl
      · rw [if_neg h63] at ht ⊢
        by_cases hqp : q = .qp ∧ startsAgain c = true
        · rw [if_pos hqp] at ht ⊢
          obtain ⟨rfl, hsa⟩ := hqp
          simp only [JR, reduceCtorEq, if_false] at hJ
          obtain ⟨_, _, rfl, ⟨x, rfl, _, _⟩, _⟩ := hJ
          refine Gives.bad hc (by decide) ?_
          rw [ht]
          repeat' split
          all_goals exact raises_markR rfl
        · rw [if_neg hqp] at ht ⊢
          by_cases hqe : q = .qe ∧ (isPchar c = true ∨ c = 37)
          · rw [if_pos hqe]
            obtain ⟨rfl, hpc⟩ := hqe
            simp only [JR, reduceCtorEq, if_false, false_implies, true_implies, true_and] at hJ
            obtain ⟨_, _, rfl, ⟨x, rfl, hb2, hx⟩, _⟩ := hJ
            have hxx : x = w.take (w.length - 2) := by
              rw [hx, ← hsl, sl, sl, List.take_take]
              congr 1
              rw [List.length_take]
              have := length_of_drop hd hb
              rw [hd]
              omega
            have := q_run (m0 := m0) (pb := b) (q0 := .firstR)
              (o := { o with rStart := true, rComponent := x, tolower := o.tolower ++ ups .plain 0 w })
              hd' (by omega) (Or.inr ⟨rfl, c, t, rfl, by simp only [qStep]; rcases hpc with h | h <;> simp [h]; split <;> simp⟩) ho2
            rw [hsl, ← hxx]
            exact this
          · rw [if_neg hqe]
            have h37 : ¬ (q = .qe ∧ c = 37) := fun h => hqe ⟨h.1, Or.inr h.2⟩
            have hpc : ¬ (q = .qe ∧ isPchar c = true) := fun h => hqe ⟨h.1, Or.inl h.2⟩
            rw [if_neg h37, if_neg hpc] at ht
            refine Gives.bad hc (rState q).1 ?_
            rw [ht]
            exact rRaise

end Urn
