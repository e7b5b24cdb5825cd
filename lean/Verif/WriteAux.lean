import Verif.WriteInv
import Verif.ConcAux
import Verif.EqualAux
/-!
# The writes of a call that returns a URN; the buffer at every moment
-/
set_option autoImplicit false
namespace Urn
open Tables Spec

/-! ## If nothing is written, the normalized string is the string -/

theorem shiftW_nil {pb : Int} {delta : UInt8} {is : List Int} {d : Bytes} (h : shiftW pb delta is d = []) : is = [] := by
  cases is with
  | nil => rfl
  | cons i is => simp [shiftW] at h

theorem norm_act {a : Act} {m m' : Machine} {o o' : URN} {fl : Flow} (h : execAct a m o = .ok (fl, m', o')) (hw : actW a m o = [])
    (ho : o.norm = o.SS) : o'.norm = o'.SS := by
  cases a
  case setNss =>
    simp only [actW, List.append_eq_nil_iff] at hw
    have ht := shiftW_nil hw.1
    simp only [execAct] at h
    obtain ⟨ss, h1, h⟩ := bind_ok h
    obtain ⟨d1, h2, h⟩ := bind_ok h
    obtain ⟨nm, h3, h⟩ := bind_ok h
    obtain ⟨d2, h4, h⟩ := bind_ok h
    simp only [pure, Except.pure, Except.ok.injEq, Prod.mk.injEq] at h
    obtain ⟨rfl, rfl, rfl⟩ := h
    rw [ht] at h2
    simp only [shiftAll, Except.ok.injEq] at h2
    subst h2
    rw [h1] at h3
    injection h3 with h3
    exact h3.symm
  case throwPreUrnErr =>
    simp only [execAct] at h
    split at h
    · split at h
      · obtain ⟨c, h1, h⟩ := bind_ok h
        split at h <;>
        · simp only [raise, pure, Except.pure, Except.ok.injEq, Prod.mk.injEq] at h
          obtain ⟨rfl, rfl, rfl⟩ := h
          exact ho
      · simp only [Except.ok.injEq, Prod.mk.injEq] at h
        obtain ⟨rfl, rfl, rfl⟩ := h
        exact ho
    · simp only [Except.ok.injEq, Prod.mk.injEq] at h
      obtain ⟨rfl, rfl, rfl⟩ := h
      exact ho
  case setScimType =>
    simp only [execAct] at h
    obtain ⟨t, h1, h⟩ := bind_ok h
    cases hs : o.scim with
    | none => simp [hs] at h
    | some sc =>
      simp only [hs, pure, Except.pure, Except.ok.injEq, Prod.mk.injEq] at h
      obtain ⟨rfl, rfl, rfl⟩ := h
      exact ho
  case setScimName | setScimOther =>
    all_goals
      simp only [execAct] at h
      cases hs : o.scim with
      | none => simp [hs] at h
      | some sc =>
        simp only [hs] at h
        obtain ⟨t, h1, h⟩ := bind_ok h
        simp only [pure, Except.pure, Except.ok.injEq, Prod.mk.injEq] at h
        obtain ⟨rfl, rfl, rfl⟩ := h
        exact ho
  case setPre | setNid | setRComponent | setQComponent | setFComponent =>
    all_goals
      simp only [execAct] at h
      obtain ⟨t, h1, h⟩ := bind_ok h
      simp only [pure, Except.pure, Except.ok.injEq, Prod.mk.injEq] at h
      obtain ⟨rfl, rfl, rfl⟩ := h
      exact ho
  case errHex | errScimOther | markRStart | markQStart =>
    all_goals
      simp only [execAct] at h
      split at h <;>
      · simp only [raise, Except.ok.injEq, Prod.mk.injEq] at h
        obtain ⟨rfl, rfl, rfl⟩ := h
        exact ho
  case markScim =>
    simp only [execAct] at h
    cases hs : o.scim with
    | none => simp [hs] at h
    | some sc =>
      simp only [hs, Except.ok.injEq, Prod.mk.injEq] at h
      obtain ⟨rfl, rfl, rfl⟩ := h
      exact ho
  all_goals
    simp only [execAct, raise, Except.ok.injEq, Prod.mk.injEq] at h
    obtain ⟨rfl, rfl, rfl⟩ := h
    exact ho

theorem norm_acts {as : List Act} : ∀ {m m' : Machine} {o o' : URN} {fl : Flow}, execActs as m o = .ok (fl, m', o') → actsW as m o = [] →
    o.norm = o.SS → o'.norm = o'.SS := by
  induction as with
  | nil =>
    intro m m' o o' fl h _ ho
    simp only [execActs, Except.ok.injEq, Prod.mk.injEq] at h
    obtain ⟨rfl, rfl, rfl⟩ := h
    exact ho
  | cons a as ih =>
    intro m m' o o' fl h hw ho
    rcases execActs_cons h with ⟨m1, o1, h1, h2⟩ | ⟨rfl, h1⟩
    · rw [actsW_cons_next h1, List.append_eq_nil_iff] at hw
      exact ih h2 hw.2 (norm_act h1 hw.1 ho)
    · rw [actsW_cons_again h1] at hw
      exact norm_act h1 hw ho

theorem norm_step {st st' : St} (h : step st = .ok st') (hw : stepW st = []) (ho : st.o.norm = st.o.SS) : st'.o.norm = st'.o.SS := by
  rcases st with ⟨ctl, m, o⟩
  cases ctl with
  | resume =>
    obtain ⟨c, h1, h2⟩ := resume_inv h
    simp only [stepW, h1] at hw
    rcases h2 with ⟨h2, _⟩ | ⟨fl, m', o', h2, h3⟩
    · rw [h2]; exact ho
    · rw [h3]; exact norm_acts h2 hw ho
  | again =>
    simp only [step] at h
    cases ht : toStateActions[m.cs]? with
    | none => rw [ht] at h; simp at h
    | some t =>
      rw [ht] at h
      by_cases h33 : t = 33
      · subst h33
        simp only [execAct, bind, Except.bind, pure, Except.pure, Except.ok.injEq] at h
        subst h
        exact ho
      · by_cases h0 : m.cs = 0
        · simp [h0, pure, Except.pure] at h; subst h; exact ho
        · by_cases hp : m.p + 1 = m.pe
          · simp [h0, hp, pure, Except.pure] at h; subst h; exact ho
          · simp [h0, hp, pure, Except.pure] at h; subst h; exact ho
  | testEof =>
    simp only [step] at h
    simp only [stepW] at hw
    split at h
    · rename_i he
      rw [if_pos he] at hw
      cases hn : eofActions[m.cs]? with
      | none => rw [hn] at h; simp at h
      | some n =>
        simp only [hn] at h
        simp only [eofTab, hn, Option.map_some] at hw
        obtain ⟨⟨fl, m1, o1⟩, h2, h⟩ := bind_ok h
        have := norm_acts h2 hw ho
        cases fl <;>
        · simp only [pure, Except.pure, Except.ok.injEq] at h
          subst h
          exact this
    · simp only [pure, Except.pure, Except.ok.injEq] at h; subst h; exact ho
  | out => simp only [step, pure, Except.pure, Except.ok.injEq] at h; subst h; exact ho

theorem norm_run {k : Nat} : ∀ {st : St} {m : Machine} {o : URN}, run k st = .ok (m, o) → runW k st = [] → st.o.norm = st.o.SS → o.norm = o.SS := by
  induction k with
  | zero =>
    intro st m o h _ ho
    rcases st with ⟨ctl, m', o'⟩
    cases ctl <;> simp [run] at h
    rw [← h.2]; exact ho
  | succ k ih =>
    intro st m o h hw ho
    rcases st with ⟨ctl, m', o'⟩
    by_cases hc : ctl = .out
    · subst hc; simp [run] at h; rw [← h.2]; exact ho
    · rw [run.eq_3 _ _ (by rintro m o h; injection h with h; exact hc h)] at h
      cases hs : step ⟨ctl, m', o'⟩ with
      | error p => rw [hs] at h; simp at h
      | ok st' =>
        rw [hs] at h
        rw [runW.eq_3 _ _ (by rintro m o h; injection h with h; exact hc h), hs, List.append_eq_nil_iff] at hw
        exact ih h hw.2 (norm_step hs hw.1 ho)

theorem norm_parse {m : Machine} {s : Bytes} {r : Parsed} {u : URN} (h : m.parse s = .ok r) (hw : m.writes s = []) (hu : r.urn = some u) :
    u.norm = u.SS := by
  simp only [Machine.parse] at h
  cases hr : run (fuelFor s.length) (entry (m.init s)) with
  | diverge => simp [hr] at h
  | panic p => simp [hr] at h
  | ok x =>
    obtain ⟨m1, o1⟩ := x
    simp only [hr, Run.ok_bind, Run.pure_eq, Run.ok.injEq] at h
    subst h
    simp only [result] at hu
    split at hu
    · simp at hu
    · simp at hu; subst hu
      refine norm_run hr hw ?_
      simp only [entry]; split <;> (try split) <;> rfl

/-! ## The place of the specific string -/

theorem count_unique {s x y a b : Bytes} (h1 : s = x ++ 58 :: a) (h2 : s = y ++ 58 :: b) (hc : x.count 58 = y.count 58) : x = y ∧ a = b := by
  have key : ∀ {x y a b : Bytes}, s = x ++ 58 :: a → s = y ++ 58 :: b → x.count 58 = y.count 58 → x.length ≤ y.length → x = y ∧ a = b := by
    intro x y a b h1 h2 hc hl
    rw [h1] at h2
    rcases List.append_eq_append_iff.mp h2 with ⟨z, rfl, h3⟩ | ⟨z, rfl, h3⟩
    · cases z with
      | nil => simp at h3; simp [h3]
      | cons d z =>
        simp at h3
        rw [← h3.1] at hc
        simp at hc
    · cases z with
      | nil => simp at h3; simp [h3]
      | cons d z => simp at hl; omega
  rcases Nat.le_total x.length y.length with h | h
  · exact key h1 h2 hc h
  · obtain ⟨e1, e2⟩ := key h2 h1 hc.symm h
    exact ⟨e1.symm, e2.symm⟩

theorem NssAt.unique {s pre nid nss rest : Bytes} {K b e : Nat} (h : NssAt s K b e) (hs : s = pre ++ 58 :: nid ++ 58 :: (nss ++ rest))
    (hK : pre.count 58 + 1 + nid.count 58 + 1 = K) (hn : ∀ c ∈ nss, c ≠ 63 ∧ c ≠ 35) (hr : rest = [] ∨ rest.head? = some 63 ∨ rest.head? = some 35) :
    b = pre.length + nid.length + 2 ∧ sl s b e = nss := by
  obtain ⟨hb1, hcol⟩ := h.colon
  have hlt := lt_of_get hcol
  have hle := h.le
  have e1 : s = s.take (b - 1) ++ 58 :: s.drop b := by
    have := List.take_append_drop (b - 1) s
    rw [List.drop_eq_getElem_cons hlt] at this
    rw [List.getElem?_eq_getElem hlt] at hcol
    injection hcol with hcol
    rw [hcol, show b - 1 + 1 = b by omega] at this
    exact this.symm
  have e2 : s.take b = s.take (b - 1) ++ [58] := by
    have : s.take b = s.take (b - 1 + 1) := by rw [show b - 1 + 1 = b by omega]
    rw [this, List.take_add_one, hcol]; rfl
  have hcnt := h.count
  unfold colons at hcnt
  rw [e2] at hcnt
  simp at hcnt
  have hs' : s = (pre ++ 58 :: nid) ++ 58 :: (nss ++ rest) := hs
  obtain ⟨g1, g2⟩ := count_unique e1 hs' (by simp [List.count_append]; omega)
  have hlen : b = pre.length + nid.length + 2 := by
    have := congrArg List.length g1
    simp at this
    omega
  refine ⟨hlen, ?_⟩
  simp only [sl, g2]
  have hstop := h.stop
  have hin := h.inside
  simp only [sl, g2] at hin
  have hidx : ∀ i, s[b + i]? = (nss ++ rest)[i]? := by intro i; rw [← g2, List.getElem?_drop]
  have hL : s.length = b + (nss ++ rest).length := by
    have := congrArg List.length g2
    have hb2 := h.bound
    rw [List.length_drop] at this
    omega
  have hend : e - b = nss.length := by
    rcases Nat.lt_trichotomy (e - b) nss.length with hlt' | heq | hgt
    · exfalso
      have hx := hidx (e - b)
      rw [show b + (e - b) = e by omega, List.getElem?_append_left hlt', List.getElem?_eq_getElem hlt'] at hx
      have := hn _ (List.getElem_mem hlt')
      rcases hstop with hstop | hstop | hstop
      · rw [hL] at hstop; simp at hstop; omega
      · rw [hx] at hstop; injection hstop with hstop; exact this.1 hstop
      · rw [hx] at hstop; injection hstop with hstop; exact this.2 hstop
    · exact heq
    · exfalso
      have hb2 := h.bound
      cases rest with
      | nil => simp at hL; omega
      | cons c rest =>
        have hm : c ∈ List.take (e - b) (nss ++ c :: rest) := by
          rw [List.take_append]
          refine List.mem_append_right _ ?_
          rw [show e - b - nss.length = (e - b - nss.length - 1) + 1 by omega]
          simp
        have := hin c hm
        simp at hr
        rcases hr with hr | hr
        · exact this.1 hr
        · exact this.2 hr
  rw [hend]
  simp

/-! ## Writes of an accepted call -/

theorem pctSeq_noQ {w : Bytes} (h : PctSeq isPcharSlash w) : ∀ c ∈ w, c ≠ 63 ∧ c ≠ 35 := by
  have h1 : ∀ c : UInt8, isPcharSlash c = true → c ≠ 63 ∧ c ≠ 35 := forall_byte (by decide +kernel)
  have h2 : ∀ c : UInt8, isAlnum c = true → c ≠ 63 ∧ c ≠ 35 := forall_byte (by decide +kernel)
  induction h with
  | nil => simp
  | char hc _ ih =>
    intro d hd
    rcases List.mem_cons.mp hd with rfl | hd
    · exact h1 _ hc
    · exact ih d hd
  | pct ha hb _ ih =>
    intro d hd
    rcases List.mem_cons.mp hd with rfl | hd
    · decide
    · rcases List.mem_cons.mp hd with rfl | hd
      · exact h2 _ ha
      · rcases List.mem_cons.mp hd with rfl | hd
        · exact h2 _ hb
        · exact ih d hd

theorem pctSeq_escs {w : Bytes} (h : PctSeq isPcharSlash w) : escs .plain w = .plain ∧ EscOk w := by
  induction h with
  | nil => exact ⟨rfl, by intro i c h; simp at h⟩
  | @char c w hc _ ih =>
    have hne : c ≠ 37 := by rintro rfl; simp [slash37] at hc
    refine ⟨by simpa [escs, Esc.adv, hne] using ih.1, ?_⟩
    intro i x h1 h2
    cases i with
    | zero => simp [escs] at h2
    | succ i => exact ih.2 i x (by simpa using h1) (by simpa [escs, Esc.adv, hne] using h2)
  | @pct a b w ha hb _ ih =>
    refine ⟨by simpa [escs, Esc.adv] using ih.1, ?_⟩
    intro i x h1 h2
    match i with
    | 0 => simp [escs] at h2
    | 1 => simp at h1; subst h1; exact ha
    | 2 => simp at h1; subst h1; exact hb
    | i + 3 => exact ih.2 i x (by simpa using h1) (by simpa [escs, Esc.adv] using h2)

theorem lowerEsc_same {w : Bytes} (h : PctSeq isPcharSlash w) (he : lowerEsc w = w) : ∀ k, escUpper k w = [] := by
  have hup : ∀ c : UInt8, lower c = c → isUpper c = false := forall_byte (by decide +kernel)
  induction h with
  | nil => intro k; rfl
  | @char c w hc hw ih =>
    have hne : c ≠ 37 := by rintro rfl; simp [slash37] at hc
    intro k
    rw [escUpper_cons hne]
    refine ih ?_ _
    rw [lowerEsc.eq_2 _ _ (by rintro a b w' h _; exact hne h)] at he
    injection he
  | @pct a b w ha hb hw ih =>
    intro k
    simp only [lowerEsc, List.cons.injEq, true_and] at he
    simp [escUpper, hup _ he.1, hup _ he.2.1, ih he.2.2]

/-- What is common to the results of the three grammars. -/
theorem parsed_shape {mode : ParsingMode} (hm : KnownMode mode) {s : Bytes} {u : URN} (h : ParsesTo mode s u) :
    ∃ pre rest, s = pre ++ 58 :: u.ID ++ 58 :: (u.SS ++ rest) ∧ pre.length = 3 ∧ 58 ∉ pre ∧
      u.ID.count 58 = (if mode = RFC7643Only then 2 else 0) ∧ (rest = [] ∨ rest.head? = some 63 ∨ rest.head? = some 35) ∧
      PctSeq isPcharSlash u.SS := by
  have hseq := parsed_seq hm h
  have hlen : ∀ {w : Bytes}, IsUrn w → w.length = 3 := by
    intro w hw; obtain ⟨a, b, c, rfl, _⟩ := isUrn_iff.mp hw; rfl
  have hcount : ∀ {w : Bytes}, 58 ∉ w → w.count 58 = 0 := fun h => List.count_eq_zero.mpr h
  rcases hm with rfl | rfl | rfl
  · obtain ⟨pre, nid, nss, h1, _, rfl⟩ := parsesTo_2141.mp h
    exact ⟨pre, [], by rw [h1.eq]; simp [urn2141], hlen h1.hpre, h1.hpre.noColon, by simpa [RFC2141Only, RFC7643Only, urn2141] using hcount h1.hnid.noColon, Or.inl rfl, hseq⟩
  · obtain ⟨pre, kw, ty, name, tail, other, h1, rfl⟩ := parsesTo_7643.mp h
    exact ⟨pre, [], by rw [h1.eq]; simp [urnScim], hlen h1.hpre, h1.hpre.noColon, by simp only [urnScim]; decide, Or.inl rfl, hseq⟩
  · obtain ⟨pre, nid, nss, r, q, f, h1, rfl⟩ := parsesTo_8141.mp h
    refine ⟨pre, opt (lit "?+") r ++ opt (lit "?=") q ++ opt (lit "#") f, by rw [h1.eq]; simp [urn8141], hlen h1.hpre, h1.hpre.noColon,
      by simpa [RFC8141Only, RFC7643Only, urn8141] using hcount h1.hnid.noColon, ?_, hseq⟩
    cases r with
    | some r => right; left; simp [opt, lit]
    | none =>
      cases q with
      | some q => right; left; simp [opt, lit]
      | none =>
        cases f with
        | some f => right; right; simp [opt, lit]
        | none => left; rfl


/-- The lowercasing and the restoring writes of the letters at the positions `L`. -/
def lowerRestore (s : Bytes) (L : List Nat) : List (Nat × UInt8) :=
  L.map (fun j => (j, lower (s.getD j 0))) ++ L.map (fun j => (j, s.getD j 0))

theorem writes_accepted {mode : ParsingMode} (hm : KnownMode mode) {s : Bytes} {u : URN} {m : Machine} {r : Parsed}
    (hst : m.startParsingAt = (if mode = RFC7643Only then 44 else if mode = RFC2141Only then 1 else 83))
    (hp : m.parse s = .ok r) (hu : r.urn = some u) (h : ParsesTo mode s u) :
    m.writes s = lowerRestore s (escUpper (u.ID.length + 5) u.SS) := by
  obtain ⟨pre, rest, h1, h2, h3, h4, h5, h6⟩ := parsed_shape hm h
  have hst' : m.startParsingAt ∈ [1, 44, 83] := by
    rw [hst]; split
    · simp
    · split <;> simp
  have hK : pre.count 58 + 1 + u.ID.count 58 + 1 = nssColons m.startParsingAt := by
    rw [List.count_eq_zero.mpr h3, h4, hst]
    rcases hm with rfl | rfl | rfl <;> rfl
  rcases writes_good hp hst' with hw | ⟨b, e, hn, hw⟩
  · rw [hw]
    have := norm_parse hp hw hu
    rw [(parsed_normal hm h).1] at this
    rw [lowerEsc_same h6 this]; rfl
  · obtain ⟨e1, e2⟩ := hn.unique h1 hK (pctSeq_noQ h6) h5
    rw [hw, e2, e1, h2]
    simp only [lowerRestore]
    rw [show 3 + u.ID.length + 2 = u.ID.length + 5 by omega]

/-! ## The buffer at every moment -/

/-- The contents of the buffer after `n` memory accesses of a call that runs alone. -/
def Prog.bufferAfter {α : Type} : Nat → Prog α → Bytes → Bytes
  | 0, _, d => d
  | _ + 1, .done _, d => d
  | n + 1, .read i k, d => (k (d.getD i 0)).bufferAfter n d
  | n + 1, .write i c k, d => k.bufferAfter n (d.set i c)

/-- Carry out writes. -/
def applyW (W : List (Nat × UInt8)) (d : Bytes) : Bytes := W.foldl (fun d x => d.set x.1 x.2) d

theorem bufferAfter_prefix {α : Type} (n : Nat) : ∀ (p : Prog α) (d : Bytes), ∃ k, p.bufferAfter n d = applyW ((p.alone d).2.2.take k) d := by
  induction n with
  | zero => intro p d; exact ⟨0, by cases p <;> rfl⟩
  | succ n ih =>
    intro p d
    cases p with
    | done r => exact ⟨0, rfl⟩
    | read i k => exact ih (k (d.getD i 0)) d
    | write i c k =>
      obtain ⟨j, hj⟩ := ih k (d.set i c)
      exact ⟨j + 1, hj⟩

theorem applyW_length (W : List (Nat × UInt8)) : ∀ d, (applyW W d).length = d.length := by
  induction W with
  | nil => intro d; rfl
  | cons x W ih => intro d; show (applyW W (d.set x.1 x.2)).length = _; rw [ih]; simp

theorem applyW_get (W : List (Nat × UInt8)) : ∀ (d : Bytes) (i : Nat), i < d.length →
    (applyW W d).getD i 0 = d.getD i 0 ∨ (i, (applyW W d).getD i 0) ∈ W := by
  induction W with
  | nil => intro d i _; exact Or.inl rfl
  | cons x W ih =>
    intro d i hi
    show (applyW W (d.set x.1 x.2)).getD i 0 = _ ∨ (i, (applyW W (d.set x.1 x.2)).getD i 0) ∈ _
    rcases ih (d.set x.1 x.2) i (by simpa using hi) with h | h
    · by_cases hx : x.1 = i
      · right
        rw [h, ← hx, set_getD_eq (by omega)]
        exact List.mem_cons_self ..
      · left; rw [h, set_getD_ne hx]
    · right; exact List.mem_cons_of_mem _ h

end Urn
