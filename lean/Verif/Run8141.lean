import Verif.Tab8141
import Verif.RunComp
/-!
# The RFC 8141 automaton computes `ref8141`
-/
namespace Urn
open Tables Spec

variable {m0 : Machine} {s : Bytes}

/-- What follows a question mark. -/
theorem rq_comp_run {b : Nat} {pb : Int} {o : URN} {rest : Bytes} (hd : s.drop b = rest) (hb : b ≤ s.length)
    (ho : o.rStart = false) (ho2 : o.qStart = false) :
    Gives m0 s 125 b pb o (refRQComp (flagsOf m0.parsingMode).hx o rest b) := by
  unfold refRQComp
  cases rest with
  | nil =>
    have hlen : b = s.length := by have := length_of_drop hd hb; simp at this; omega
    exact Gives.eofNil hlen (rfl : eofTab 125 = some []) (by decide) exec_nil
  | cons c t =>
    obtain ⟨hc, hd'⟩ := drop_cons hd
    have hlt := lt_of_get hc
    simp only
    by_cases h43 : c = 43
    · rw [if_pos h43]
      have ht : tab 125 c = (126, []) := by rw [rqTab, if_pos h43]
      exact Gives.char hc ⟨by decide, by rw [ht], by decide, by decide, by rw [ht]; exact exec_nil⟩
        (r_run hd' (by omega) ho ho2)
    · rw [if_neg h43]
      by_cases h61 : c = 61
      · rw [if_pos h61]
        have ht : tab 125 c = (135, []) := by rw [rqTab, if_neg h43, if_pos h61]
        exact Gives.char hc ⟨by decide, by rw [ht]; rfl, by decide, by decide, by rw [ht]; exact exec_nil⟩
          (q_run (q0 := .first) hd' (by omega) (Or.inl rfl) ho2)
      · rw [if_neg h61]
        have ht : tab 125 c = (0, []) := by rw [rqTab, if_neg h43, if_neg h61]
        exact Gives.stop hc (by decide) (by rw [ht]) ⟨_, by rw [ht]; exact exec_nil⟩

theorem nss8Raise {q : Nss} {cs p : Nat} {pb : Int} {o : URN} :
    Raises m0 s (nss8Err q) cs p pb o ⟨nssErr (flagsOf m0.parsingMode).hx .specificString8141 q, p⟩ := by
  cases q <;> first
    | exact raises_of (fun _ _ => rfl)
    | exact raises_hex (fun _ => raises_of (fun _ _ => rfl))

/-- Running the specific string. -/
theorem nss8_run {b : Nat} {pb : Int} {pre nid : Bytes} {nss : Bytes} (hd : s.drop b = nss) (hb : b ≤ s.length) :
    Gives m0 s 120 b pb { «prefix» := pre, ID := nid } (refNss8141 (flagsOf m0.parsingMode).hx pre nid nss b) := by
  obtain ⟨pb', o', hJ, hd', hE⟩ := nss_sim (m0 := m0) (s := s) nss8Tab (b := b) (pb0 := pb)
    (o0 := { «prefix» := pre, ID := nid })
    (pb1 := b) (k0 := 0) (o1 := { «prefix» := pre, ID := nid }) rfl (fun cs => rfl) nss hd
  have hle := munch_le (stp := nssStep isPchar isPcharSlash) (q := .start) hd hb
  refine Gives.munch hle hE ?_
  have happ := munch_append (nssStep isPchar isPcharSlash) .start nss
  have hstop := fun c t => munch_stop (nssStep isPchar isPcharSlash) .start nss (c := c) (t := t)
  unfold refNss8141
  generalize munch (nssStep isPchar isPcharSlash) .start nss = x at *
  obtain ⟨q, w, r⟩ := x
  simp only at *
  have hsl : sl s b (b + w.length) = w := sl_of_drop (by rw [hd, ← happ])
  have hset : ∀ cs, q.ok = true → pb' = b ∧ execAct .setNss (mk m0 s cs (b + w.length : Nat) pb' none) o' =
      .ok (.next, mk m0 s cs (b + w.length : Nat) pb' none,
        { «prefix» := pre, ID := nid, SS := w, norm := lowerGo .plain w, tolower := ups .plain 0 w }) := by
    intro cs hok
    have hns : q ≠ .start := by rintro rfl; simp [Nss.ok] at hok
    simp only [JN, hns, if_false] at hJ
    obtain ⟨_, _, rfl, rfl, _⟩ := hJ
    refine ⟨rfl, ?_⟩
    rw [act_setNss (by omega) (by omega) (by rfl), hsl]
    rfl
  cases r with
  | nil =>
    have hlen : b + w.length = s.length := by have := length_of_drop hd' hle; simp at this; omega
    by_cases hok : q.ok = true
    · obtain ⟨rfl, h⟩ := hset (nss8Enc q) hok
      simp only [hok, if_true]
      refine Gives.eofOk hlen (nss8Eof q) (nss8Final q hok).1 (nss8Final q hok).2 (pb' := b) ?_
      rw [hok]
      exact (exec_cons_next h).trans ((exec_cons_next act_8141).trans exec_nil)
    · simp only [hok, if_false, Bool.false_eq_true]
      refine Gives.eofBad hlen (nss8Eof q) ?_
      simp only [hok, if_false, Bool.false_eq_true]
      exact nss8Raise
  | cons c t =>
    obtain ⟨hc, hd2⟩ := drop_cons hd'
    have hlt := lt_of_get hc
    have ht := nss8Bad q c (hstop c t rfl)
    simp only
    by_cases h35 : c = 35 ∧ q.ok = true
    · rw [if_pos h35] at ht ⊢
      obtain ⟨rfl, h⟩ := hset 178 h35.2
      exact Gives.char hc ⟨(nss8Tab q c).1, by rw [ht], by decide, by decide,
        by rw [ht]; exact (exec_cons_next h).trans exec_nil⟩ (f_run hd2 (by omega))
    · rw [if_neg h35] at ht ⊢
      by_cases h63 : c = 63 ∧ q.ok = true
      · rw [if_pos h63] at ht ⊢
        obtain ⟨rfl, h⟩ := hset 125 h63.2
        exact Gives.char hc ⟨(nss8Tab q c).1, by rw [ht], by decide, by decide,
          by rw [ht]; exact (exec_cons_next h).trans exec_nil⟩ (rq_comp_run hd2 (by omega) rfl rfl)
      · rw [if_neg h63] at ht ⊢
        refine Gives.bad hc (nss8Tab q c).1 ?_
        rw [ht]
        exact nss8Raise

/-! ## Identifier -/

theorem nid8_wf_step {q q' : N8} {c : UInt8} (h : q.wf = true) (hs : nid8Step q c = some q') : q'.wf = true := by
  cases q <;> simp only [nid8Step] at hs <;> (repeat' split at hs) <;>
    simp only [Option.some.injEq, reduceCtorEq] at hs <;> subst hs <;>
    simp_all [N8.wf] <;> omega

/-- Position of the scanner. -/
def N8.pos (q : N8) (p : Nat) : Prop :=
  match q with
  | .start => p = 4
  | .u1 => p = 5
  | .u2 => p = 6
  | .u3 => p = 7
  | .u4 => p = 8
  | .al i _ | .da i _ => 4 < p ∧ (i = true → 8 ≤ p)

/-- Invariant: position of the scanner and the value of the prefix. -/
def JI (s pre : Bytes) (q : N8) (p : Nat) (pb : Int) (o : URN) : Prop :=
  q.wf = true ∧ (q = .start ∨ pb = 4) ∧ p ≤ s.length ∧
  o = { «prefix» := if q.inf then sl s 4 7 else pre } ∧ q.pos p

theorem nid8_run {pre : Bytes} {rest : Bytes} (hd : s.drop 4 = rest) (hb : 4 ≤ s.length) (hpre : pre ≠ []) :
    Gives m0 s 87 4 0 { «prefix» := pre } (refNid8141 (flagsOf m0.parsingMode) pre rest) := by
  unfold refNid8141
  by_cases hcl : (flagsOf m0.parsingMode).chk = true ∧ clash rest = true
  · rw [if_pos hcl]
    obtain ⟨h1, h2⟩ := hcl
    cases rest with
    | nil => simp [clash] at h2
    | cons c r =>
      simp only [clash, List.head?_cons, Option.map_some, Bool.and_eq_true, beq_iff_eq, Option.some.injEq] at h2
      obtain ⟨h2, h3⟩ := h2
      obtain ⟨hc, _⟩ := drop_cons hd
      have ht := nid8Tab .start rfl c
      have h7 : s[4 + 3]? = some 58 := by rw [← hd, List.getElem?_drop] at h3; exact h3
      have hal : isAlnum c = true := by
        have : ∀ c : UInt8, lower c = 117 → isAlnum c = true := forall_byte (by decide +kernel)
        exact this c h2
      simp only [nid8Row, nid8Step, hal, if_true, h2] at ht
      refine Gives.bad (p' := 7) hc (by decide) ?_
      rw [show (87 : Nat) = N8.start.enc from rfl, ht]
      exact throw_raises h1 hpre h7
  · rw [if_neg hcl]
    have H := munch_sim (m0 := m0) (s := s) nid8Step N8.enc (JI s pre)
      (by
        rintro q q' c p pb o ⟨hwf, hpb, hle, rfl, hq⟩ hc hs
        have hwf' := nid8_wf_step hwf hs
        have ht := nid8Tab q hwf c
        have hlt := lt_of_get hc
        simp only [nid8Row, hs] at ht
        have key : ∀ o',
            execActs (tab q.enc c).2 (mk m0 s q'.enc p pb none) { «prefix» := if q.inf then sl s 4 7 else pre } =
              .ok (.next, mk m0 s q'.enc p 4 none, o') →
            o' = { «prefix» := if q'.inf then sl s 4 7 else pre } →
            q'.pos (p + 1) →
            ∃ pb' o', JI s pre q' (p + 1) pb' o' ∧
              Trans m0 s q.enc c p pb { «prefix» := if q.inf then sl s 4 7 else pre } q'.enc pb' o' := by
          intro o' h1 h2 h3
          exact ⟨4, o', ⟨hwf', Or.inr rfl, by omega, h2, h3⟩, (nid8Eof q hwf).2.1, by rw [ht],
            (nid8Eof q' hwf').2.1, (nid8Eof q' hwf').2.2, h1⟩
        cases q with
        | start =>
          simp only [N8.pos] at hq
          subst hq
          simp only [nid8Step] at hs
          split at hs
          · split at hs
            · rename_i hu
              simp only [Option.some.injEq] at hs
              subst hs
              refine key (o' := { «prefix» := pre }) ?_ rfl rfl
              rw [ht]
              simp only [hu, if_true]
              rw [throw_ok, exec_nil]
              · rfl
              · intro hchk _ h58
                apply hcl
                refine ⟨hchk, ?_⟩
                have h1 : rest.head? = some c := by rw [← hd, List.head?_drop]; exact hc
                have h2 : rest[3]? = some 58 := by rw [← hd, List.getElem?_drop]; exact h58
                simp [clash, h1, h2, hu]
            · rename_i hu
              simp only [Option.some.injEq] at hs
              subst hs
              refine key (o' := { «prefix» := pre }) ?_ rfl (by simp [N8.pos])
              rw [ht]
              simp only [hu, if_false]
              rfl
          · simp at hs
        | u3 =>
          simp only [reduceCtorEq, false_or] at hpb
          simp only [N8.pos] at hq
          subst hpb hq
          simp only [nid8Step] at hs
          split at hs
          · rename_i hdash
            simp only [Option.some.injEq] at hs
            subst hs
            refine key (o' := { «prefix» := sl s 4 7 }) ?_ rfl rfl
            rw [ht]
            simp only [hdash, if_true]
            exact (exec_cons_next (act_setPre (b := 4) (by omega) (by omega))).trans exec_nil
          · rename_i hdash
            split at hs
            · simp only [Option.some.injEq] at hs
              subst hs
              refine key (o' := { «prefix» := pre }) ?_ rfl (by simp [N8.pos])
              rw [ht]
              simp only [hdash, if_false]
              exact exec_nil
            · simp at hs
        | u4 =>
          simp only [reduceCtorEq, false_or] at hpb
          simp only [N8.pos] at hq
          subst hpb hq
          refine key _ (by rw [ht]; exact exec_nil) ?_ ?_
          all_goals
            simp only [nid8Step] at hs
            (repeat' split at hs) <;> simp only [Option.some.injEq, reduceCtorEq] at hs <;> subst hs <;> simp [N8.inf, N8.pos]
        | u1 =>
          simp only [reduceCtorEq, false_or] at hpb
          simp only [N8.pos] at hq
          subst hpb hq
          refine key _ (by rw [ht]; exact exec_nil) ?_ ?_
          all_goals
            simp only [nid8Step] at hs
            (repeat' split at hs) <;> simp only [Option.some.injEq, reduceCtorEq] at hs <;> subst hs <;> simp [N8.inf, N8.pos]
        | u2 =>
          simp only [reduceCtorEq, false_or] at hpb
          simp only [N8.pos] at hq
          subst hpb hq
          refine key _ (by rw [ht]; exact exec_nil) ?_ ?_
          all_goals
            simp only [nid8Step] at hs
            (repeat' split at hs) <;> simp only [Option.some.injEq, reduceCtorEq] at hs <;> subst hs <;> simp [N8.inf, N8.pos]
        | al i k =>
          simp only [reduceCtorEq, false_or] at hpb
          simp only [N8.pos] at hq
          subst hpb
          refine key _ (by rw [ht]; exact exec_nil) ?_ ?_
          all_goals
            simp only [nid8Step] at hs
            (repeat' split at hs) <;> simp only [Option.some.injEq, reduceCtorEq] at hs <;> subst hs <;>
              first | rfl | exact ⟨by omega, fun h => by have := hq.2 h; omega⟩
        | da i k =>
          simp only [reduceCtorEq, false_or] at hpb
          simp only [N8.pos] at hq
          subst hpb
          refine key _ (by rw [ht]; exact exec_nil) ?_ ?_
          all_goals
            simp only [nid8Step] at hs
            (repeat' split at hs) <;> simp only [Option.some.injEq, reduceCtorEq] at hs <;> subst hs <;>
              first | rfl | exact ⟨by omega, fun h => by have := hq.2 h; omega⟩)
      rest .start 4 0 { «prefix» := pre } hd ⟨rfl, Or.inl rfl, hb, rfl, rfl⟩
    obtain ⟨pb', o', ⟨hwf, hpb, _, rfl, hq⟩, hd', hE⟩ := H
    have hle := munch_le (stp := nid8Step) (q := .start) hd hb
    refine Gives.munch hle hE ?_
    have happ := munch_append nid8Step .start rest
    have hstop := fun c t => munch_stop nid8Step .start rest (c := c) (t := t)
    generalize munch nid8Step .start rest = x at *
    obtain ⟨q, w, r⟩ := x
    simp only at *
    have hsl : sl s 4 (4 + w.length) = w := sl_of_drop (by rw [hd, ← happ])
    cases r with
    | nil =>
      have hlen : 4 + w.length = s.length := by have := length_of_drop hd' hle; simp at this; omega
      obtain ⟨⟨as, he⟩, _⟩ := nid8Eof q hwf
      exact Gives.eofBad hlen he (raises_of (fun _ _ => rfl))
    | cons c t =>
      obtain ⟨hc, hd2⟩ := drop_cons hd'
      have hlt := lt_of_get hc
      have hs := hstop c t rfl
      have ht := nid8Tab q hwf c
      simp only [nid8Row, hs] at ht
      simp only
      by_cases hcol : c = 58 ∧ q.canEnd = true
      · rw [if_pos hcol] at ht ⊢
        have hns : q ≠ .start := by rintro rfl; simp [N8.canEnd] at hcol
        simp only [hns, false_or] at hpb
        subst hpb
        have hpre' : (if q.inf = true then sl s 4 7 else pre) = (if q.inf = true then w.take 3 else pre) := by
          by_cases hinf : q.inf = true
          · simp only [hinf, if_true]
            have h8 : 8 ≤ 4 + w.length := by
              cases q with
              | al i k => exact hq.2 hinf
              | da i k => exact hq.2 hinf
              | u4 => simp only [N8.pos] at hq; omega
              | _ => simp [N8.inf] at hinf
            rw [← hsl, sl, sl, List.take_take]
            congr 1
            omega
          · simp only [hinf, if_false, Bool.false_eq_true]
        rw [hpre']
        refine Gives.char (t := 120) (pb' := 4)
          (o' := { «prefix» := if q.inf = true then w.take 3 else pre, ID := w }) hc
          ⟨(nid8Eof q hwf).2.1, by rw [ht], by decide, by decide, ?_⟩ ?_
        · rw [ht]
          have h := act_setNid (m0 := m0) (s := s) (cs := 120) (p := 4 + w.length) (b := 4) (err := none)
            (o := { «prefix» := if q.inf = true then w.take 3 else pre }) (by omega) (by omega)
          rw [hsl] at h
          exact exec_cons_next h
        · exact nss8_run hd2 (by omega)
      · rw [if_neg hcol] at ht ⊢
        by_cases hu4 : q = .u4 ∧ isAlnum c = true
        · rw [if_pos hu4] at ht ⊢
          obtain ⟨rfl, _⟩ := hu4
          have hw : 4 + w.length = 8 := hq
          rw [hw] at hc hlt ⊢
          generalize (if N8.u4.inf = true then sl s 4 7 else pre) = pre'
          have e1 : step ⟨.resume, mk m0 s N8.u4.enc (8 : Nat) pb' none, { «prefix» := pre' }⟩ =
              .ok ⟨.again, mk m0 s 171 (8 : Nat) pb' none, { «prefix» := pre' }⟩ :=
            resume_step (fl := .next) hc (dispatch_ne_out (by decide) c) (by rw [ht]; exact exec_nil)
          have e2 : step ⟨.again, mk m0 s 171 (8 : Nat) pb' none, { «prefix» := pre' }⟩ =
              .ok ⟨.again, mk m0 s 193 (((8 : Nat) : Int) - 1) pb' (some ⟨.informalID8141, (7 : Nat)⟩), { «prefix» := pre' }⟩ := rfl
          have e3 := fail_again (m0 := m0) (s := s) (p := 8) (pb := pb') (o := { «prefix» := pre' })
            (er := ⟨.informalID8141, (7 : Nat)⟩) (by omega)
          have h8 : (8 : Nat) ≠ s.length := by omega
          unfold Gives cfg
          rw [if_neg h8]
          exact Ends.mono (Ends.step e1 (by simp) (Ends.step e2 (by simp) e3)) (by omega)
        · rw [if_neg hu4] at ht ⊢
          refine Gives.bad hc (nid8Eof q hwf).2.1 ?_
          rw [ht]
          cases q <;> exact raises_of (fun _ _ => rfl)

theorem run8141 : Gives m0 s 83 0 0 {} (ref8141 (flagsOf m0.parsingMode) s) :=
  prefix_run preTab83 (fun rest hd hl => nid8_run hd hl (by
    intro h
    have := congrArg List.length h
    rw [List.length_take, List.length_nil] at this
    omega))

end Urn
