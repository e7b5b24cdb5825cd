import Verif.Ref
/-!
# Lemmas on actions, slices and escapes used by the run theorems
-/
namespace Urn
open Tables Spec

variable {m0 : Machine} {s : Bytes}

/-- `s[b:p]` for positions known to be in range. -/
def sl (s : Bytes) (b p : Nat) : Bytes := (s.drop b).take (p - b)

theorem sl_self (b : Nat) : sl s b b = [] := by simp [sl]

theorem sl_succ {b p : Nat} {c : UInt8} (h : s[p]? = some c) (hb : b ≤ p) :
    sl s b (p + 1) = sl s b p ++ [c] := by
  have hp := lt_of_get h
  have e : p + 1 - b = (p - b) + 1 := by omega
  have hc : (s.drop b)[p - b]? = some c := by
    rw [List.getElem?_drop]; rw [show b + (p - b) = p by omega]; exact h
  simp only [sl, e]
  rw [List.take_add_one, hc]
  rfl

theorem sl_length {b p : Nat} (hp : p ≤ s.length) : (sl s b p).length = p - b := by
  simp [sl]; omega

theorem sl_of_drop {b : Nat} {w r : Bytes} (h : s.drop b = w ++ r) : sl s b (b + w.length) = w := by
  simp [sl, h]

theorem slice_ok {d : Bytes} {b p : Nat} (h : b ≤ p) (hp : p ≤ d.length) :
    slice d b p = .ok (sl d b p) := by
  have h1 : (0 : Int) ≤ b ∧ (b : Int) ≤ p ∧ (p : Int) ≤ d.length := by omega
  simp [slice, sl, h1]

theorem text_ok {cs b p : Nat} {err} (h : b ≤ p) (hp : p ≤ s.length) :
    (mk m0 s cs p b err).text = .ok (sl s b p) := slice_ok h hp

/-! ## Escapes -/

/-- Position inside an escape after reading a string. -/
def escs (h : Esc) (w : Bytes) : Esc := w.foldl Esc.adv h

theorem escs_snoc (h : Esc) (w : Bytes) (c : UInt8) : escs h (w ++ [c]) = (escs h w).adv c := by
  simp [escs]

theorem escs_append (h : Esc) (w v : Bytes) : escs h (w ++ v) = escs (escs h w) v := by
  simp [escs]

theorem ups_append (h : Esc) (k : Nat) (w v : Bytes) :
    ups h k (w ++ v) = ups h k w ++ ups (escs h w) (k + w.length) v := by
  induction w generalizing h k with
  | nil => simp [ups, escs]
  | cons a w ih =>
    simp only [List.cons_append, ups, ih, escs, List.foldl_cons, List.length_cons, List.append_assoc]
    congr 3
    omega

theorem ups_snoc (h : Esc) (k : Nat) (w : Bytes) (c : UInt8) :
    ups h k (w ++ [c]) = ups h k w ++
      (if escs h w ≠ .plain ∧ isUpper c = true then [((k + w.length : Nat) : Int)] else []) := by
  rw [ups_append]
  simp [ups]

theorem lowerGo_append (h : Esc) (w v : Bytes) :
    lowerGo h (w ++ v) = lowerGo h w ++ lowerGo (escs h w) v := by
  induction w generalizing h with
  | nil => simp [lowerGo, escs]
  | cons a w ih => simp only [List.cons_append, lowerGo, ih, escs, List.foldl_cons]

theorem lowerGo_length (h : Esc) (w : Bytes) : (lowerGo h w).length = w.length := by
  induction w generalizing h with
  | nil => rfl
  | cons a w ih => simp [lowerGo, ih]

/-- No percent sign, nothing to do. -/
theorem ups_noPct {w : Bytes} (hw : ∀ c ∈ w, c ≠ 37) (k : Nat) : ups .plain k w = [] := by
  induction w generalizing k with
  | nil => rfl
  | cons a w ih =>
    have ha : a ≠ 37 := hw a (by simp)
    simp only [ups, ne_eq, not_true, false_and, if_false, Esc.adv, ha, List.nil_append]
    exact ih (fun c hc => hw c (by simp [hc])) _

theorem escs_noPct {w : Bytes} (hw : ∀ c ∈ w, c ≠ 37) : escs .plain w = .plain := by
  induction w with
  | nil => rfl
  | cons a w ih =>
    have ha : a ≠ 37 := hw a (by simp)
    simp only [escs, List.foldl_cons, Esc.adv, ha, if_false]
    exact ih (fun c hc => hw c (by simp [hc]))

theorem lowerGo_noPct {w : Bytes} (hw : ∀ c ∈ w, c ≠ 37) : lowerGo .plain w = w := by
  induction w with
  | nil => rfl
  | cons a w ih =>
    have ha : a ≠ 37 := hw a (by simp)
    simp only [lowerGo, ne_eq, not_true, if_false, Esc.adv, ha]
    rw [ih (fun c hc => hw c (by simp [hc]))]

/-- One iteration of the loops of `set_nss`. -/
theorem shift_cons {a w : Bytes} {c d : UInt8} {pb : Int} {k : Nat} {is : List Int}
    (ha : (a.length : Int) = pb + k) :
    shiftAll pb d ((k : Int) :: is) (a ++ c :: w) = shiftAll pb d is (a ++ (c + d) :: w) := by
  have h1 : index (a ++ c :: w) (pb + k) = .ok c := by
    rw [← ha]; exact index_of (by simp)
  have h2 : store (a ++ c :: w) (pb + k) (c + d) = .ok (a ++ (c + d) :: w) := by
    rw [← ha]
    simp [store]
    omega
  simp only [shiftAll, h1, h2, bind, Except.bind]

theorem upper_shift : ∀ c : UInt8, isUpper c = true → c + 32 = lower c ∧ lower c + (-32) = c := by
  apply forall_byte; decide +kernel

theorem lower_id {c : UInt8} (h : ¬ isUpper c = true) : lower c = c := by simp [lower, h]

/-- The first loop of `set_nss` lower cases the escapes. -/
theorem shift_down {pb : Int} (a w b : Bytes) (h : Esc) (k : Nat) (ha : (a.length : Int) = pb + k) :
    shiftAll pb 32 (ups h k w) (a ++ (w ++ b)) = .ok (a ++ (lowerGo h w ++ b)) := by
  induction w generalizing a h k with
  | nil => rfl
  | cons c w ih =>
    have e : ∀ d : UInt8, shiftAll pb 32 (ups (h.adv c) (k + 1) w) ((a ++ [d]) ++ (w ++ b)) =
        .ok ((a ++ [d]) ++ (lowerGo (h.adv c) w ++ b)) := fun d =>
      ih (a ++ [d]) (h.adv c) (k + 1) (by simp; omega)
    simp only [List.append_assoc, List.singleton_append] at e
    simp only [ups, lowerGo]
    by_cases hh : h ≠ .plain ∧ isUpper c = true
    · rw [if_pos hh, if_pos hh.1, List.singleton_append, List.cons_append, shift_cons ha,
        (upper_shift c hh.2).1]
      exact e _
    · rw [if_neg hh, List.nil_append, List.cons_append]
      by_cases h1 : h = .plain
      · simp only [h1, ne_eq, not_true, if_false]
        rw [h1] at e; exact e c
      · have h2 : ¬ isUpper c = true := fun h2 => hh ⟨h1, h2⟩
        simp only [ne_eq, h1, not_false_eq_true, if_true, lower_id h2]
        exact e c

/-- The second loop of `set_nss` restores the buffer. -/
theorem shift_up {pb : Int} (a w b : Bytes) (h : Esc) (k : Nat) (ha : (a.length : Int) = pb + k) :
    shiftAll pb (-32) (ups h k w) (a ++ (lowerGo h w ++ b)) = .ok (a ++ (w ++ b)) := by
  induction w generalizing a h k with
  | nil => rfl
  | cons c w ih =>
    have e : ∀ d : UInt8, shiftAll pb (-32) (ups (h.adv c) (k + 1) w) ((a ++ [d]) ++ (lowerGo (h.adv c) w ++ b)) =
        .ok ((a ++ [d]) ++ (w ++ b)) := fun d =>
      ih (a ++ [d]) (h.adv c) (k + 1) (by simp; omega)
    simp only [List.append_assoc, List.singleton_append] at e
    simp only [ups, lowerGo]
    by_cases hh : h ≠ .plain ∧ isUpper c = true
    · rw [if_pos hh, if_pos hh.1, List.singleton_append, List.cons_append, shift_cons ha,
        (upper_shift c hh.2).2]
      exact e _
    · rw [if_neg hh, List.nil_append, List.cons_append]
      by_cases h1 : h = .plain
      · simp only [h1, ne_eq, not_true, if_false]
        rw [h1] at e; exact e c
      · have h2 : ¬ isUpper c = true := fun h2 => hh ⟨h1, h2⟩
        simp only [ne_eq, h1, not_false_eq_true, if_true, lower_id h2]
        exact e c

/-! ## Actions -/

theorem exec_nil {m : Machine} {o : URN} : execActs [] m o = .ok (.next, m, o) := rfl

theorem exec_cons_next {a : Act} {as : List Act} {m m' : Machine} {o o' : URN}
    (h : execAct a m o = .ok (.next, m', o')) : execActs (a :: as) m o = execActs as m' o' := by
  simp only [execActs, h, bind, Except.bind]

theorem exec_cons_again {a : Act} {as : List Act} {m m' : Machine} {o o' : URN}
    (h : execAct a m o = .ok (.again, m', o')) : execActs (a :: as) m o = .ok (.again, m', o') := by
  simp only [execActs, h, bind, Except.bind, pure, Except.pure]

theorem act_mark {cs p : Nat} {pb : Int} {err} {o : URN} :
    execAct .mark (mk m0 s cs p pb err) o = .ok (.next, mk m0 s cs p p err, o) := rfl

theorem act_tolower {cs p : Nat} {pb : Int} {err} {o : URN} :
    execAct .tolower (mk m0 s cs p pb err) o =
      .ok (.next, mk m0 s cs p pb err, { o with tolower := o.tolower ++ [(p : Int) - pb] }) := rfl

theorem act_setPre {cs p b : Nat} {err} {o : URN} (h : b ≤ p) (hp : p ≤ s.length) :
    execAct .setPre (mk m0 s cs p b err) o =
      .ok (.next, mk m0 s cs p b err, { o with «prefix» := sl s b p }) := by
  simp only [execAct, text_ok h hp]; rfl

theorem act_setNid {cs p b : Nat} {err} {o : URN} (h : b ≤ p) (hp : p ≤ s.length) :
    execAct .setNid (mk m0 s cs p b err) o =
      .ok (.next, mk m0 s cs p b err, { o with ID := sl s b p }) := by
  simp only [execAct, text_ok h hp]; rfl

theorem act_setR {cs p b : Nat} {err} {o : URN} (h : b ≤ p) (hp : p ≤ s.length) :
    execAct .setRComponent (mk m0 s cs p b err) o =
      .ok (.next, mk m0 s cs p b err, { o with rComponent := sl s b p }) := by
  simp only [execAct, text_ok h hp]; rfl

theorem act_setQ {cs p b : Nat} {err} {o : URN} (h : b ≤ p) (hp : p ≤ s.length) :
    execAct .setQComponent (mk m0 s cs p b err) o =
      .ok (.next, mk m0 s cs p b err, { o with qComponent := sl s b p }) := by
  simp only [execAct, text_ok h hp]; rfl

theorem act_setF {cs p b : Nat} {err} {o : URN} (h : b ≤ p) (hp : p ≤ s.length) :
    execAct .setFComponent (mk m0 s cs p b err) o =
      .ok (.next, mk m0 s cs p b err, { o with fComponent := sl s b p }) := by
  simp only [execAct, text_ok h hp]; rfl

/-- `set_nss` on a string whose upper case escape letters are at the recorded offsets. -/
theorem act_setNss {cs p b : Nat} {err} {o : URN} (h : b ≤ p) (hp : p ≤ s.length)
    (ht : o.tolower = ups .plain 0 (sl s b p)) :
    execAct .setNss (mk m0 s cs p b err) o =
      .ok (.next, mk m0 s cs p b err,
        { o with SS := sl s b p, norm := lowerGo .plain (sl s b p) }) := by
  have hs : s = s.take b ++ (sl s b p ++ s.drop p) := by
    have : s.drop b = sl s b p ++ s.drop p := by
      rw [sl, show s.drop p = (s.drop b).drop (p - b) by rw [List.drop_drop]; congr 1; omega]
      exact (List.take_append_drop _ _).symm
    rw [← this, List.take_append_drop]
  have hl : ((s.take b).length : Int) = (b : Int) + (0 : Nat) := by simp; omega
  have h1 := shift_down (pb := b) (s.take b) (sl s b p) (s.drop p) .plain 0 hl
  have h2 := shift_up (pb := b) (s.take b) (sl s b p) (s.drop p) .plain 0 hl
  rw [← hs] at h1 h2
  have e1 : (s.take b ++ (lowerGo .plain (sl s b p) ++ s.drop p)).length = s.length := by
    conv => rhs; rw [hs]
    simp [lowerGo_length]
  have e2 : sl (s.take b ++ (lowerGo .plain (sl s b p) ++ s.drop p)) b p = lowerGo .plain (sl s b p) := by
    have e3 : (s.take b).length = b := by simp; omega
    have e4 : (lowerGo .plain (sl s b p)).length = p - b := by rw [lowerGo_length, sl_length hp]
    rw [sl, List.drop_append, e3, ← e4]
    simp
  generalize hd : s.take b ++ (lowerGo .plain (sl s b p) ++ s.drop p) = d at *
  have t1 : (mk m0 s cs p b err).text = .ok (sl s b p) := text_ok h hp
  have t2 := slice_ok (d := d) h (by omega)
  rw [e2] at t2
  rw [← ht] at h1 h2
  simp only [execAct, t1, bind, Except.bind]
  have e5 : shiftAll (mk m0 s cs p b err).pb 32 o.tolower (mk m0 s cs p b err).data = .ok d := h1
  rw [e5]
  simp only [Machine.text, mk, t2, h2]
  rfl

theorem act_base {m : Machine} {o : URN} :
    execAct .baseType m o = .ok (.next, m, { o with kind := .RFC2141 }) := rfl
theorem act_8141 {m : Machine} {o : URN} :
    execAct .rfc8141Type m o = .ok (.next, m, { o with kind := .RFC8141 }) := rfl
theorem act_scimType {m : Machine} {o : URN} :
    execAct .scimType m o = .ok (.next, m, { o with kind := .RFC7643 }) := rfl
theorem act_createScim {m : Machine} {o : URN} :
    execAct .createScim m o = .ok (.next, m, { o with scim := some {} }) := rfl

theorem act_setScimType {cs p b : Nat} {err} {o : URN} {sc : SCIM} (h : b ≤ p) (hp : p ≤ s.length)
    (ho : o.scim = some sc) :
    execAct .setScimType (mk m0 s cs p b err) o =
      .ok (.next, mk m0 s cs p b err,
        { o with scim := some { sc with Typ := SchemaType.fromString (sl s b p) } }) := by
  simp only [execAct, text_ok h hp, ho]; rfl

theorem act_markScim {cs p : Nat} {pb : Int} {err} {o : URN} {sc : SCIM} (ho : o.scim = some sc) :
    execAct .markScim (mk m0 s cs p pb err) o =
      .ok (.next, mk m0 s cs p pb err, { o with scim := some { sc with pos := p } }) := by
  simp only [execAct, ho]; rfl

theorem act_setScimName {cs p b : Nat} {pb : Int} {err} {o : URN} {sc : SCIM} (h : b ≤ p) (hp : p ≤ s.length)
    (ho : o.scim = some sc) (hb : sc.pos = b) :
    execAct .setScimName (mk m0 s cs p pb err) o =
      .ok (.next, mk m0 s cs p pb err, { o with scim := some { sc with Name := sl s b p } }) := by
  have := slice_ok (d := s) h hp
  simp only [execAct, ho, hb, mk, this]; rfl

theorem act_setScimOther {cs p b : Nat} {pb : Int} {err} {o : URN} {sc : SCIM} (h : b ≤ p) (hp : p ≤ s.length)
    (ho : o.scim = some sc) (hb : sc.pos = b) :
    execAct .setScimOther (mk m0 s cs p pb err) o =
      .ok (.next, mk m0 s cs p pb err, { o with scim := some { sc with Other := sl s b p } }) := by
  have := slice_ok (d := s) h hp
  simp only [execAct, ho, hb, mk, this]; rfl

/-! ## Error actions -/

/-- An unconditional error action raises, whatever follows it. -/
theorem raises_of {a : Act} {as : List Act} {k : ErrKind} {cs p : Nat} {pb : Int} {o : URN}
    (h : ∀ m o, execAct a m o = .ok (raise k m.p m o)) :
    Raises m0 s (a :: as) cs p pb o ⟨k, p⟩ :=
  ⟨pb, o, exec_cons_again (by rw [h]; rfl)⟩

theorem raises_hex {as : List Act} {cs p : Nat} {pb : Int} {o : URN} {k : ErrKind}
    (h : (flagsOf m0.parsingMode).hx = false → Raises m0 s as cs p pb o ⟨k, p⟩) :
    Raises m0 s (.errHex :: as) cs p pb o ⟨if (flagsOf m0.parsingMode).hx then .hex else k, p⟩ := by
  by_cases hx : m0.parsingMode = RFC2141Only ∨ m0.parsingMode = RFC8141Only
  · have : (flagsOf m0.parsingMode).hx = true := by simp only [flagsOf, decide_eq_true_eq]; exact hx
    rw [this]
    refine ⟨pb, o, exec_cons_again ?_⟩
    simp only [execAct, mk, hx, if_true]
    rfl
  · have : (flagsOf m0.parsingMode).hx = false := by simp only [flagsOf, decide_eq_false_iff_not]; exact hx
    obtain ⟨pb', o', h⟩ := h this
    rw [this]
    refine ⟨pb', o', ?_⟩
    rw [exec_cons_next (m' := mk m0 s cs p pb none) (o' := o)]
    · exact h
    · simp only [execAct, mk, hx, if_false]

theorem hex_skip {as : List Act} {cs p : Nat} {pb : Int} {o : URN}
    (h : (flagsOf m0.parsingMode).hx = false) :
    execActs (.errHex :: as) (mk m0 s cs p pb none) o = execActs as (mk m0 s cs p pb none) o := by
  have hx : ¬ (m0.parsingMode = RFC2141Only ∨ m0.parsingMode = RFC8141Only) := by
    simpa [flagsOf] using h
  exact exec_cons_next (by simp only [execAct, mk, hx, if_false])

/-! ## The reserved word look-ahead -/

theorem throw_ok {cs p : Nat} {pb : Int} {o : URN} {as : List Act}
    (h : (flagsOf m0.parsingMode).chk = true → o.prefix ≠ [] → s[p + 3]? ≠ some 58) :
    execActs (.mark :: .throwPreUrnErr :: as) (mk m0 s cs p pb none) o =
      execActs as (mk m0 s cs p p none) o := by
  rw [exec_cons_next act_mark]
  refine exec_cons_next ?_
  simp only [execAct, mk]
  by_cases hm : m0.parsingMode ≠ RFC8141Only
  · simp only [hm, if_true, ne_eq, not_false_eq_true]
    by_cases hp : (p : Int) + 3 < s.length
    · have hlt : p + 3 < s.length := by omega
      have hi : index s ((p : Int) + 3) = .ok s[p + 3] :=
        index_of (p := p + 3) (List.getElem?_eq_getElem hlt)
      simp only [hp, if_true, hi, bind, Except.bind]
      have hc : (flagsOf m0.parsingMode).chk = true := by simpa [flagsOf] using hm
      have := h hc
      rw [List.getElem?_eq_getElem hlt] at this
      by_cases ho : o.prefix = []
      · simp [ho, pure, Except.pure]
      · have h2 : s[p + 3] ≠ 58 := fun h2 => this ho (by rw [h2])
        simp [h2, pure, Except.pure]
    · simp [hp]
  · simp [hm]

theorem throw_raises {cs p : Nat} {pb : Int} {o : URN} {as : List Act}
    (hc : (flagsOf m0.parsingMode).chk = true) (ho : o.prefix ≠ []) (h : s[p + 3]? = some 58) :
    Raises m0 s (.mark :: .throwPreUrnErr :: as) cs p pb o ⟨.noUrnWithinID, (p + 3 : Nat)⟩ := by
  have hlt := lt_of_get h
  refine ⟨p, o, ?_⟩
  rw [exec_cons_next act_mark]
  refine exec_cons_again ?_
  have hm : m0.parsingMode ≠ RFC8141Only := by simpa [flagsOf] using hc
  have hp : (p : Int) + 3 < s.length := by omega
  have hi : index s ((p : Int) + 3) = .ok 58 := index_of (p := p + 3) h
  simp only [execAct, mk, hm, if_true, ne_eq, not_false_eq_true, hp, hi, bind, Except.bind, ho]
  rfl

/-! ## Scanning characters and escapes -/

/-- Escape position of a scanner state. -/
def Nss.esc : Nss → Esc
  | .h1 => .hex1
  | .h2 => .hex2
  | _ => .plain

/-- The transitions of a scanner in the tables, on the bytes it accepts. -/
def NssTab (first cls : UInt8 → Bool) (startActs : List Act) (enc : Nss → Nat) : Prop :=
  ∀ q c, enc q ≠ 0 ∧ toStateActions[enc q]? = some 0 ∧
    ∀ q', nssStep first cls q c = some q' → tab (enc q) c =
      (enc q', if q = .start then startActs
        else if q.esc ≠ .plain ∧ isUpper c = true then [.tolower] else [])

/-- A finite check that implies `NssTab`. -/
def nssTabB (first cls : UInt8 → Bool) (startActs : List Act) (enc : Nss → Nat) (q : Nss) (c : UInt8) : Bool :=
  decide (enc q ≠ 0) && decide (toStateActions[enc q]? = some 0) &&
  match nssStep first cls q c with
  | none => true
  | some q' => decide (tabF (enc q) c =
      (enc q', if q = .start then startActs
        else if q.esc ≠ .plain ∧ isUpper c = true then [.tolower] else []))

theorem nssTab_of {first cls startActs enc}
    (h : ∀ q : Nss, ∀ i : Fin 256, nssTabB first cls startActs enc q (UInt8.ofFin i) = true) :
    NssTab first cls startActs enc := by
  intro q c
  have := h q c.toFin
  rw [show UInt8.ofFin c.toFin = c from rfl] at this
  simp only [nssTabB, Bool.and_eq_true, decide_eq_true_eq] at this
  refine ⟨this.1.1, this.1.2, fun q' hq => ?_⟩
  have h2 := this.2
  simp only [hq, decide_eq_true_eq] at h2
  rw [tab_eq]
  exact h2

/-- Invariant of a scan that started at `b` with `(pb0, o0)`, where the first transition changed
these to `(pb1, o1)`. -/
def JN (s : Bytes) (b : Nat) (pb0 : Int) (o0 : URN) (pb1 k0 : Nat) (o1 : URN)
    (q : Nss) (p : Nat) (pb : Int) (o : URN) : Prop :=
  if q = .start then p = b ∧ pb = pb0 ∧ o = o0
  else b < p ∧ p ≤ s.length ∧ pb = pb1 ∧
    o = { o1 with tolower := o1.tolower ++ ups .plain k0 (sl s b p) } ∧
    escs .plain (sl s b p) = q.esc

theorem nss_sim {first cls : UInt8 → Bool} {startActs : List Act} {enc : Nss → Nat}
    (hT : NssTab first cls startActs enc)
    {b : Nat} {pb0 : Int} {o0 : URN} {pb1 k0 : Nat} {o1 : URN} (hk : b = pb1 + k0)
    (hS : ∀ cs, execActs startActs (mk m0 s cs b pb0 none) o0 = .ok (.next, mk m0 s cs b pb1 none, o1))
    (rest : Bytes) (hr : s.drop b = rest) :
    ∃ pb' o', JN s b pb0 o0 pb1 k0 o1 (munch (nssStep first cls) .start rest).1
        (b + (munch (nssStep first cls) .start rest).2.1.length) pb' o' ∧
      s.drop (b + (munch (nssStep first cls) .start rest).2.1.length) =
        (munch (nssStep first cls) .start rest).2.2 ∧
      ∀ n u e,
        Ends m0 s n (cfg m0 s (enc (munch (nssStep first cls) .start rest).1)
          (b + (munch (nssStep first cls) .start rest).2.1.length) pb' o') u e →
        Ends m0 s (n + 2 * (munch (nssStep first cls) .start rest).2.1.length)
          (cfg m0 s (enc .start) b pb0 o0) u e := by
  refine munch_sim (nssStep first cls) enc (JN s b pb0 o0 pb1 k0 o1) ?_ rest .start b pb0 o0 hr (by simp [JN])
  intro q q' c p pb o hJ hc hq
  have hp := lt_of_get hc
  obtain ⟨h0, _, h2⟩ := hT q c
  have h2 := h2 q' hq
  obtain ⟨h0', ht', _⟩ := hT q' c
  by_cases hst : q = .start
  · subst hst
    simp only [JN, if_true] at hJ
    obtain ⟨rfl, rfl, rfl⟩ := hJ
    simp only [if_true] at h2
    refine ⟨pb1, o1, ?_, h0, by rw [h2], h0', ht', by rw [h2]; exact hS _⟩
    have hq' : q' ≠ .start := by
      intro h; subst h; simp only [nssStep] at hq; split at hq <;> (try split at hq) <;> simp at hq
    simp only [JN, hq', if_false]
    have hsl : sl s p (p + 1) = [c] := by rw [sl_succ hc (Nat.le_refl _), sl_self]; rfl
    refine ⟨by omega, by omega, trivial, ?_, ?_⟩
    · simp [hsl, ups]
    · rw [hsl]
      simp only [nssStep] at hq
      split at hq
      · simp only [Option.some.injEq] at hq; subst hq; simp_all [escs, Esc.adv, Nss.esc]
      · split at hq
        · simp only [Option.some.injEq] at hq; subst hq; simp_all [escs, Esc.adv, Nss.esc]
        · simp at hq
  · simp only [JN, hst, if_false] at hJ
    obtain ⟨hb, _, rfl, ho, hesc⟩ := hJ
    simp only [hst, if_false] at h2
    have hq' : q' ≠ .start := by
      intro h; subst h
      cases q <;> simp only [nssStep] at hq <;> split at hq <;> (try split at hq) <;> simp at hq
    have hsl := sl_succ hc (Nat.le_of_lt hb)
    have hesc' : escs .plain (sl s b (p + 1)) = q'.esc := by
      rw [hsl, escs_snoc, hesc]
      cases q <;> simp only [nssStep] at hq <;> split at hq <;> (try split at hq) <;>
        simp only [Option.some.injEq, reduceCtorEq] at hq <;> subst hq <;> simp_all [Esc.adv, Nss.esc]
    have hln := sl_length (s := s) (b := b) (p := p) (by omega)
    refine ⟨pb1, { o1 with tolower := o1.tolower ++ ups .plain k0 (sl s b (p + 1)) }, ?_, h0, by rw [h2], h0', ht', ?_⟩
    · simp only [JN, hq', if_false]
      exact ⟨by omega, by omega, trivial, trivial, hesc'⟩
    · rw [h2, hsl, ups_snoc, hesc, hln, ho]
      simp only
      split
      · rw [exec_cons_next act_tolower, exec_nil]
        have e : (p : Int) - (pb1 : Int) = ((k0 + (p - b) : Nat) : Int) := by omega
        simp [e]
      · rw [exec_nil]; simp

end Urn
