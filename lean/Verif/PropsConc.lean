import Verif.WriteAux
import Verif.PropsParse
/-!
# Properties of the memory accesses of `Parse`

C38, C39 of `properties.jsonl`.  The model of the accesses is `Verif/Conc.lean`.
-/
set_option autoImplicit false
namespace Urn
open Spec

/-! ## C39: which bytes are written, and with what -/

theorem writes_zero {m : Machine} {s : Bytes} {r : Parsed} (h : m.parse s = .ok r) (hst : m.startParsingAt = 0) : m.writes s = [] := by
  simp only [Machine.parse] at h
  cases hr : run (fuelFor s.length) (entry (m.init s)) with
  | diverge => simp [hr] at h
  | panic p => simp [hr] at h
  | ok x =>
    refine over_run ?_ hr
    have hcs : (m.init s).cs = 0 := hst
    simp only [entry]
    rw [if_pos hcs]
    split
    · exact Or.inr ⟨by simp [hcs], by simp only [hcs]; rfl⟩
    · exact Or.inl rfl

theorem parse_alone {m : Machine} (hm : Reachable m) (s : Bytes) :
    ∃ r, m.parse s = .ok r ∧ r.m.data = s ∧ (m.parseP s.length).alone s = (.ok (r.urn, r.err), s, m.writes s) := by
  obtain ⟨m', h1, h2, _⟩ := parse_ref m s hm.start
  exact ⟨_, h1, h2, by have := parseP_does h1; rw [h2] at this; exact this⟩

/-- The call split into atomic accesses, alone, returns what `Machine.parse` returns, and leaves the
buffer as it was. -/
theorem C39_alone (m : Machine) (hm : Reachable m) (s : Bytes) :
    ∃ r, m.parse s = .ok r ∧ ((m.parseP s.length).alone s).1 = .ok (r.urn, r.err) ∧ ((m.parseP s.length).alone s).2.1 = s := by
  obtain ⟨r, h1, _, h2⟩ := parse_alone hm s
  exact ⟨r, h1, by rw [h2], by rw [h2]⟩

example : ∃ r, (Cases.m RFC8141Only).parse Cases.s8141 = .ok r ∧
    (((Cases.m RFC8141Only).parseP 23).alone Cases.s8141).1 = .ok (r.urn, r.err) := by
  obtain ⟨r, h, h', _⟩ := C39_alone _ (Cases.reach RFC8141Only) Cases.s8141
  exact ⟨r, h, h'⟩

theorem upperEscape_slice {s : Bytes} {b n x : Nat} (h : UpperEscape ((s.drop b).take n) x) : UpperEscape s (b + x) ∧ x < n := by
  have key : ∀ {i c}, ((s.drop b).take n)[i]? = some c → s[b + i]? = some c ∧ i < n := by
    intro i c h
    rw [List.getElem?_take] at h
    split at h
    · rename_i hi; rw [List.getElem?_drop] at h; exact ⟨h, hi⟩
    · simp at h
  obtain ⟨c, h1, h2, h3⟩ := h
  refine ⟨⟨c, (key h1).1, h2, ?_⟩, (key h1).2⟩
  rcases h3 with ⟨h3, h4⟩ | ⟨h3, h4⟩
  · left; exact ⟨by omega, by rw [show b + x - 1 = b + (x - 1) by omega]; exact (key h4).1⟩
  · right; exact ⟨by omega, by rw [show b + x - 2 = b + (x - 2) by omega]; exact (key h4).1⟩

/-- All the writes of a call, in order: a list of positions is lowercased and then restored.  The
positions are those of the upper case letters in the percent escapes of one part of the text, which
begins after the second colon (the fourth one in SCIM mode) and ends at `?`, `#` or the end of the text. -/
theorem C39_writes (m : Machine) (hm : Reachable m) (s : Bytes) :
    ∃ L : List Nat, L.Pairwise (· < ·) ∧
      ((m.parseP s.length).alone s).2.2 = L.map (fun j => (j, lower (s.getD j 0))) ++ L.map (fun j => (j, s.getD j 0)) ∧
      (∀ j ∈ L, UpperEscape s j) ∧
      (L ≠ [] → ∃ b e, b ≤ e ∧ e ≤ s.length ∧ 1 ≤ b ∧ s[b - 1]? = some 58 ∧ ((s.take b).count 58 = 2 ∨ (s.take b).count 58 = 4) ∧
        (∀ c ∈ (s.drop b).take (e - b), c ≠ 63 ∧ c ≠ 35) ∧ (e = s.length ∨ s[e]? = some 63 ∨ s[e]? = some 35) ∧
        ∀ j, j ∈ L ↔ b ≤ j ∧ UpperEscape ((s.drop b).take (e - b)) (j - b)) := by
  obtain ⟨r, h1, _, h2⟩ := parse_alone hm s
  rw [h2]
  have hnil : m.writes s = [] → ∃ L : List Nat, L.Pairwise (· < ·) ∧
      m.writes s = L.map (fun j => (j, lower (s.getD j 0))) ++ L.map (fun j => (j, s.getD j 0)) ∧
      (∀ j ∈ L, UpperEscape s j) ∧
      (L ≠ [] → ∃ b e, b ≤ e ∧ e ≤ s.length ∧ 1 ≤ b ∧ s[b - 1]? = some 58 ∧ ((s.take b).count 58 = 2 ∨ (s.take b).count 58 = 4) ∧
        (∀ c ∈ (s.drop b).take (e - b), c ≠ 63 ∧ c ≠ 35) ∧ (e = s.length ∨ s[e]? = some 63 ∨ s[e]? = some 35) ∧
        ∀ j, j ∈ L ↔ b ≤ j ∧ UpperEscape ((s.drop b).take (e - b)) (j - b)) := by
    intro hw
    exact ⟨[], List.Pairwise.nil, by rw [hw]; rfl, by simp, by simp⟩
  by_cases h0 : m.startParsingAt = 0
  · exact hnil (writes_zero h1 h0)
  · have hst : m.startParsingAt ∈ [1, 44, 83] := by
      rcases hm.start with h | h | h | h
      · exact absurd h h0
      all_goals simp [h]
    rcases writes_good h1 hst with hw | ⟨b, e, hn, hw⟩
    · exact hnil hw
    · have hiff := escUpper_iff hn.ok hn.esc b
      refine ⟨escUpper b (sl s b e), escUpper_sorted _ _ _ (Nat.le_refl _), hw, ?_, fun _ => ⟨b, e, hn.le, hn.bound, hn.colon.1, hn.colon.2, ?_, hn.inside, hn.stop, ?_⟩⟩
      · intro j hj
        obtain ⟨h3, h4⟩ := (hiff j).mp hj
        have := (upperEscape_slice h4).1
        rwa [show b + (j - b) = j by omega] at this
      · have := hn.count
        unfold colons at this
        rw [this]
        simp only [nssColons]
        split <;> simp
      · exact hiff

example : ∃ L : List Nat, (((Cases.m RFC8141Only).parseP 23).alone Cases.s8141).2.2 =
      L.map (fun j => (j, lower (Cases.s8141.getD j 0))) ++ L.map (fun j => (j, Cases.s8141.getD j 0)) ∧ ∀ j ∈ L, UpperEscape Cases.s8141 j := by
  obtain ⟨L, _, h, h', _⟩ := C39_writes _ (Cases.reach RFC8141Only) Cases.s8141
  exact ⟨L, h, h'⟩

/-- For an accepted text the part is the namespace specific string of the result. -/
theorem C39_writes_accepted (mode : ParsingMode) (hm : KnownMode mode) (s : Bytes) (u : URN) (h : ParsesTo mode s u)
    (m : Machine) (hnew : newMachine [withParsingMode mode] = .ok m) :
    ∃ L : List Nat, L.Pairwise (· < ·) ∧
      ((m.parseP s.length).alone s).2.2 = L.map (fun j => (j, lower (s.getD j 0))) ++ L.map (fun j => (j, s.getD j 0)) ∧
      ∀ j, j ∈ L ↔ 5 + u.ID.length ≤ j ∧ UpperEscape u.SS (j - (5 + u.ID.length)) := by
  have hr := reachable_new hnew
  obtain ⟨r, h1, _, h2⟩ := parse_alone hr s
  have hu : r.urn = some u := by
    obtain ⟨r', h3, h4⟩ := h
    simp only [parse, hnew, Run.ok_bind, h1] at h3
    split at h3 <;> simp at h3 <;> rw [← h3] at h4
    · simp at h4
    · exact h4
  have hst : m.startParsingAt = (if mode = RFC7643Only then 44 else if mode = RFC2141Only then 1 else 83) := by
    rw [newMachine_mode] at hnew
    injection hnew with hnew
    rw [← hnew]
    rcases hm with rfl | rfl | rfl <;> rfl
  have hw := writes_accepted hm hst h1 hu h
  have hseq := pctSeq_escs (parsed_seq hm h)
  refine ⟨_, escUpper_sorted _ _ _ (Nat.le_refl _), by rw [h2]; exact hw, ?_⟩
  intro j
  rw [Nat.add_comm u.ID.length 5]
  exact escUpper_iff hseq.2 hseq.1 _ j

/-- Only the letter of the escape is written, at index 14. -/
example : ∃ L : List Nat, (((Cases.m RFC8141Only).parseP 23).alone Cases.s8141).2.2 =
      L.map (fun j => (j, lower (Cases.s8141.getD j 0))) ++ L.map (fun j => (j, Cases.s8141.getD j 0)) ∧ 14 ∈ L := by
  obtain ⟨L, _, h, h'⟩ := C39_writes_accepted _ Cases.k8141 _ _ Cases.p8141 _ (Cases.new _)
  exact ⟨L, h, (h' 14).mpr ⟨by decide, 65, rfl, rfl, Or.inr ⟨by decide, rfl⟩⟩⟩

/-- At every moment of a call every byte of the buffer is the original one, or the lower case form of an
original upper case letter in an escape. -/
theorem C39_moment (m : Machine) (hm : Reachable m) (s : Bytes) (n : Nat) :
    ((m.parseP s.length).bufferAfter n s).length = s.length ∧
    ∀ x c, s[x]? = some c → ((m.parseP s.length).bufferAfter n s)[x]? = some c ∨
      (UpperEscape s x ∧ ((m.parseP s.length).bufferAfter n s)[x]? = some (lower c)) := by
  obtain ⟨k, hk⟩ := bufferAfter_prefix n (m.parseP s.length) s
  rw [hk]
  refine ⟨applyW_length _ _, ?_⟩
  intro x c hx
  obtain ⟨L, _, h2, h3, _⟩ := C39_writes m hm s
  have hlt := lt_of_get hx
  have hget : ∀ {d : Bytes}, d.length = s.length → d[x]? = some (d.getD x 0) := by
    intro d hd
    rw [List.getD_eq_getElem?_getD, List.getElem?_eq_getElem (by omega)]; rfl
  rw [hget (applyW_length _ _)]
  have hsx : s.getD x 0 = c := by simp [List.getD_eq_getElem?_getD, hx]
  rcases applyW_get (((m.parseP s.length).alone s).2.2.take k) s x hlt with h | h
  · left; rw [h, hsx]
  · generalize (applyW (((m.parseP s.length).alone s).2.2.take k) s).getD x 0 = v at h ⊢
    have hmem := List.mem_of_mem_take h
    rw [h2, List.mem_append, List.mem_map, List.mem_map] at hmem
    rcases hmem with ⟨j, hj, e⟩ | ⟨j, hj, e⟩
    · injection e with e1 e2
      subst e1
      right; exact ⟨h3 j hj, by rw [← e2, hsx]⟩
    · injection e with e1 e2
      subst e1
      left; rw [← e2, hsx]

example (n : Nat) : (((Cases.m RFC8141Only).parseP 23).bufferAfter n Cases.s8141).length = 23 :=
  (C39_moment _ (Cases.reach RFC8141Only) Cases.s8141 n).1

/-- A text without such letters is never written to. -/
theorem C39_never_written (m : Machine) (hm : Reachable m) (s : Bytes) (h : ∀ x, ¬ UpperEscape s x) (n : Nat) :
    ((m.parseP s.length).alone s).2.2 = [] ∧ (m.parseP s.length).bufferAfter n s = s := by
  obtain ⟨L, _, h2, h3, _⟩ := C39_writes m hm s
  have hL : L = [] := by
    cases L with
    | nil => rfl
    | cons j L => exact absurd (h3 j (List.mem_cons_self ..)) (h j)
  have hw : ((m.parseP s.length).alone s).2.2 = [] := by rw [h2, hL]; rfl
  refine ⟨hw, ?_⟩
  obtain ⟨k, hk⟩ := bufferAfter_prefix n (m.parseP s.length) s
  rw [hk, hw, List.take_nil]; rfl

example (n : Nat) : ((Cases.m RFC2141Only).parseP 8).bufferAfter n (lit "urn:A:%1") = lit "urn:A:%1" := by
  refine (C39_never_written _ (Cases.reach RFC2141Only) (lit "urn:A:%1") ?_ n).2
  rintro x ⟨c, hc, hu, h⟩
  have hx : x < 8 := (List.getElem?_eq_some_iff.mp hc).1
  revert c hu h
  revert x; decide

/-- A machine for RFC 2141. -/
def m2141 : Machine := { startParsingAt := 1, parsingMode := RFC2141Only, parsingModeSet := true }
theorem m2141_new : newMachine [withParsingMode RFC2141Only] = .ok m2141 := newMachine_mode _
theorem m2141_reachable : Reachable m2141 := reachable_new m2141_new

/-- The writes for `urn:a:%AA`, and the buffer in the middle of the call. -/
example : ((m2141.parseP 9).alone (lit "urn:a:%AA")).2.2 = [(7, 97), (8, 97), (7, 65), (8, 65)] ∧
    (m2141.parseP 9).bufferAfter 24 (lit "urn:a:%AA") = lit "urn:a:%aa" := by decide +kernel


/-! ## C38: interleavings -/

/-- Calls of `Parse`, one for each `i`, on the machines `m i` (all different) and on the windows `win i` of a
common memory. -/
def calls {ι : Type} (m : ι → Machine) (win : ι → Window) (mem : Bytes) : Sys ι (Option URN × Option Err) :=
  ⟨mem, fun i => (m i).parseP (win i).len⟩

/-- The result of call `i`, if it has returned. -/
def Sys.returned {ι α : Type} (c : Sys ι α) (i : ι) : Option (Run α) :=
  match c.prog i with
  | .done r => some r
  | _ => none

/-- Any number of calls on any windows, under any schedule, provided that no position of one window that
holds an upper case letter in an escape lies in another window.  A call that has returned has returned
what it returns alone; a call that has been scheduled often enough has returned; and when all calls have
returned the memory is what it was. -/
theorem C38_independent {ι : Type} [DecidableEq ι] (m : ι → Machine) (hm : ∀ i, Reachable (m i)) (win : ι → Window) (mem : Bytes)
    (hfit : ∀ i, (win i).off + (win i).len ≤ mem.length)
    (hapart : ∀ i j, i ≠ j → ∀ x, UpperEscape ((win j).of mem) x →
      ¬ ((win i).off ≤ (win j).off + x ∧ (win j).off + x < (win i).off + (win i).len))
    (sched : List ι) :
    (∀ i, ∃ r, (m i).parse ((win i).of mem) = .ok r ∧
      (∀ res, ((calls m win mem).exec win sched).returned i = some res → res = .ok (r.urn, r.err)) ∧
      (((m i).parseP (win i).len).accesses ((win i).of mem) ≤ sched.count i →
        ((calls m win mem).exec win sched).returned i = some (.ok (r.urn, r.err)))) ∧
    ((∀ i, ((calls m win mem).exec win sched).returned i ≠ none) → ((calls m win mem).exec win sched).mem = mem) := by
  have hA : Apart win (fun i => (m i).writes ((win i).of mem)) := by
    intro i j hij x hx
    obtain ⟨r, _, _, h2⟩ := parse_alone (hm j) ((win j).of mem)
    obtain ⟨L, _, h3, h4, _⟩ := C39_writes (m j) (hm j) ((win j).of mem)
    rw [h2] at h3
    simp only at h3 hx
    rw [h3, List.mem_append, List.mem_map, List.mem_map] at hx
    have : x.1 ∈ L := by rcases hx with ⟨k, hk, rfl⟩ | ⟨k, hk, rfl⟩ <;> exact hk
    exact hapart i j hij _ (h4 _ this)
  have hcall : ∀ i, ∃ r : Parsed, (m i).parse ((win i).of mem) = .ok r ∧
      ((m i).parseP (win i).len).alone ((win i).of mem) = (.ok (r.urn, r.err), (win i).of mem, (m i).writes ((win i).of mem)) := by
    intro i
    obtain ⟨r, h1, _, h2⟩ := parse_alone (hm i) ((win i).of mem)
    rw [Window.of_length (hfit i)] at h2
    exact ⟨r, h1, h2⟩
  have hres : ∀ i, ∃ q, (((m i).parseP (win i).len).alone ((win i).of mem)).1 = q := fun i => ⟨_, rfl⟩
  have hagree : ∀ i, Agrees (win i) ((calls m win mem).prog i) mem (((m i).parseP (win i).len).alone ((win i).of mem)).1 ((win i).of mem)
      ((m i).writes ((win i).of mem)) := by
    intro i
    obtain ⟨r, _, h2⟩ := hcall i
    exact ⟨parseP_bounded _ _, rfl, by show (((m i).parseP (win i).len).alone ((win i).of mem)).2.1 = _; rw [h2],
      by show ∀ x ∈ (((m i).parseP (win i).len).alone ((win i).of mem)).2.2, _; rw [h2]; exact fun x hx => hx⟩
  obtain ⟨g1, g2, g3⟩ := agrees_exec hA sched (c := calls m win mem) hfit hagree
  have hdone : ∀ i res, ((calls m win mem).exec win sched).returned i = some res →
      ((calls m win mem).exec win sched).prog i = .done res := by
    intro i res h
    simp only [Sys.returned] at h
    split at h
    · rename_i r hr; injection h with h; rw [hr, h]
    · simp at h
  refine ⟨?_, ?_⟩
  · intro i
    obtain ⟨r, h1, h2⟩ := hcall i
    have hval : ∀ res, ((calls m win mem).exec win sched).returned i = some res → res = .ok (r.urn, r.err) := by
      intro res hres
      have h3 := (g1 i).result
      rw [hdone i res hres, h2] at h3
      exact h3
    refine ⟨r, h1, hval, ?_⟩
    intro hacc
    have h3 := progress_exec hA i sched (c := calls m win mem) hfit hagree
    have h4 : (((calls m win mem).exec win sched).prog i).accesses ((win i).of ((calls m win mem).exec win sched).mem) = 0 := by
      rw [h3]
      show ((m i).parseP (win i).len).accesses ((win i).of mem) - _ = 0
      omega
    obtain ⟨res, hres⟩ := accesses_zero h4
    have h5 : ((calls m win mem).exec win sched).returned i = some res := by simp only [Sys.returned, hres]
    rw [h5, hval res h5]
  · intro hall
    refine List.ext_getElem g3 ?_
    intro a ha1 ha2
    have key : ((calls m win mem).exec win sched).mem.getD a 0 = mem.getD a 0 := by
      by_cases h : ∃ i, ∃ x ∈ (m i).writes ((win i).of mem), (win i).off + x.1 = a
      · obtain ⟨i, x, hx, rfl⟩ := h
        obtain ⟨L, _, h3, h4, _⟩ := C39_writes (m i) (hm i) ((win i).of mem)
        obtain ⟨r, _, h2⟩ := hcall i
        rw [Window.of_length (hfit i), h2] at h3
        simp only at h3
        rw [h3, List.mem_append, List.mem_map, List.mem_map] at hx
        have hxL : x.1 ∈ L := by rcases hx with ⟨k, hk, rfl⟩ | ⟨k, hk, rfl⟩ <;> exact hk
        obtain ⟨c, hc, _⟩ := h4 _ hxL
        have hlt := lt_of_get hc
        rw [Window.of_length (hfit i)] at hlt
        have hfin := (g1 i).final
        obtain ⟨res, hres⟩ : ∃ res, ((calls m win mem).exec win sched).returned i = some res := by
          cases hr : ((calls m win mem).exec win sched).returned i with
          | none => exact absurd hr (hall i)
          | some res => exact ⟨res, rfl⟩
        rw [hdone i res hres] at hfin
        simp only [Prog.alone] at hfin
        rw [← Window.of_get hlt, hfin, Window.of_get hlt]
      · exact g2 a (fun i x hx e => h ⟨i, x, hx, e⟩)
    rw [List.getD_eq_getElem?_getD, List.getD_eq_getElem?_getD, List.getElem?_eq_getElem ha1, List.getElem?_eq_getElem ha2] at key
    simpa using key

/-- Two windows that overlap: `urn:a:b` and, from its index 4 on, `a:burn:%A`; only the last byte of the second is written. -/
example (sched : List Bool) : ∃ r, (Cases.m RFC2141Only).parse (lit "urn:a:b") = .ok r ∧
    ∀ res, ((calls (fun _ : Bool => Cases.m RFC2141Only) (fun b => if b then ⟨0, 7⟩ else ⟨4, 9⟩) (lit "urn:a:burn:%AA")).exec
      (fun b => if b then ⟨0, 7⟩ else ⟨4, 9⟩) sched).returned true = some res → res = .ok (r.urn, r.err) := by
  have hx : ∀ x c, x < 9 → (lit "a:burn:%A")[x]? = some c → isUpper c = true → 8 ≤ x := by
    intro x c h1; revert c; revert x; decide
  have hy : ∀ x c, x < 7 → (lit "urn:a:b")[x]? = some c → isUpper c = false := by
    intro x c h1; revert c; revert x; decide
  obtain ⟨r, h1, h2, _⟩ := (C38_independent (fun _ : Bool => Cases.m RFC2141Only) (fun _ => Cases.reach _)
    (fun b => if b then ⟨0, 7⟩ else ⟨4, 9⟩) (lit "urn:a:burn:%AA") (by decide) (by
      intro i j hij x ⟨c, hc, hu, _⟩
      cases j
      · have hi : i = true := by simpa using hij
        subst hi
        have := hx x c (List.getElem?_eq_some_iff.mp hc).1 hc hu
        simp; omega
      · have := hy x c (List.getElem?_eq_some_iff.mp hc).1 hc
        rw [hu] at this; simp at this) sched).1 true
  exact ⟨r, h1, h2⟩

/-- Different buffers: windows that do not overlap. -/
theorem C38_disjoint {ι : Type} [DecidableEq ι] (m : ι → Machine) (hm : ∀ i, Reachable (m i)) (win : ι → Window) (mem : Bytes)
    (hfit : ∀ i, (win i).off + (win i).len ≤ mem.length)
    (hdisj : ∀ i j, i ≠ j → (win i).off + (win i).len ≤ (win j).off ∨ (win j).off + (win j).len ≤ (win i).off)
    (sched : List ι) (i : ι) :
    ∃ r, (m i).parse ((win i).of mem) = .ok r ∧
      (∀ res, ((calls m win mem).exec win sched).returned i = some res → res = .ok (r.urn, r.err)) ∧
      (((m i).parseP (win i).len).accesses ((win i).of mem) ≤ sched.count i →
        ((calls m win mem).exec win sched).returned i = some (.ok (r.urn, r.err))) := by
  refine (C38_independent m hm win mem hfit ?_ sched).1 i
  rintro i j hij x ⟨c, hc, _⟩ ⟨h1, h2⟩
  have hlt := lt_of_get hc
  rw [Window.of_length (hfit j)] at hlt
  rcases hdisj i j hij with h | h <;> omega

example (sched : List Bool) : ∃ r, (Cases.m RFC2141Only).parse (lit "urn:a:%AA") = .ok r ∧
    ∀ res, ((calls (fun _ : Bool => Cases.m RFC2141Only) (fun b => if b then ⟨0, 9⟩ else ⟨9, 7⟩) (lit "urn:a:%AAurn:b:c")).exec
      (fun b => if b then ⟨0, 9⟩ else ⟨9, 7⟩) sched).returned true = some res → res = .ok (r.urn, r.err) := by
  obtain ⟨r, h1, h2, _⟩ := C38_disjoint (fun _ : Bool => Cases.m RFC2141Only) (fun _ => Cases.reach _)
    (fun b => if b then ⟨0, 9⟩ else ⟨9, 7⟩) (lit "urn:a:%AAurn:b:c") (by decide) (by decide) sched true
  exact ⟨r, h1, h2⟩

/-- The same buffer, or buffers that overlap in any way, as long as none contains an upper case letter in
an escape. -/
theorem C38_shared {ι : Type} [DecidableEq ι] (m : ι → Machine) (hm : ∀ i, Reachable (m i)) (win : ι → Window) (mem : Bytes)
    (hfit : ∀ i, (win i).off + (win i).len ≤ mem.length)
    (hlow : ∀ i x, ¬ UpperEscape ((win i).of mem) x)
    (sched : List ι) (i : ι) :
    ∃ r, (m i).parse ((win i).of mem) = .ok r ∧
      (∀ res, ((calls m win mem).exec win sched).returned i = some res → res = .ok (r.urn, r.err)) ∧
      (((m i).parseP (win i).len).accesses ((win i).of mem) ≤ sched.count i →
        ((calls m win mem).exec win sched).returned i = some (.ok (r.urn, r.err))) :=
  (C38_independent m hm win mem hfit (fun _ j _ x hx => absurd hx (hlow j x)) sched).1 i

example (sched : List Nat) (i : Nat) : ∃ r, (Cases.m RFC2141Only).parse (lit "urn:A:%1") = .ok r ∧
    ∀ res, ((calls (fun _ : Nat => Cases.m RFC2141Only) (fun _ => ⟨0, 8⟩) (lit "urn:A:%1")).exec (fun _ => ⟨0, 8⟩) sched).returned i =
      some res → res = .ok (r.urn, r.err) := by
  obtain ⟨r, h1, h2, _⟩ := C38_shared (fun _ : Nat => Cases.m RFC2141Only) (fun _ => Cases.reach _) (fun _ => ⟨0, 8⟩) (lit "urn:A:%1")
    (fun _ => by decide) (by
      rintro - x ⟨c, hc, hu, h⟩
      have hx : x < 8 := (List.getElem?_eq_some_iff.mp hc).1
      revert c hu h
      revert x; decide) sched i
  exact ⟨r, h1, h2⟩

/-- Two calls on neighbouring windows of one memory, interleaved access by access. -/
example : ∃ r1 r2, m2141.parse (lit "urn:a:%AA") = .ok r1 ∧ m2141.parse (lit "urn:b:c") = .ok r2 ∧
    (let c := (calls (fun _ : Bool => m2141) (fun b => if b then ⟨0, 9⟩ else ⟨9, 7⟩) (lit "urn:a:%AAurn:b:c")).exec
        (fun b => if b then ⟨0, 9⟩ else ⟨9, 7⟩) (List.flatten (List.replicate 60 [true, false]))
     c.returned true = some (.ok (r1.urn, r1.err)) ∧ c.returned false = some (.ok (r2.urn, r2.err)) ∧ c.mem = lit "urn:a:%AAurn:b:c") :=
  ⟨⟨_, _, _⟩, ⟨_, _, _⟩, rfl, rfl, by decide +kernel⟩

theorem noSet_first {L : List Nat} {s : Bytes} (hL : L ≠ []) :
    ∃ j W, j ∈ L ∧ L.map (fun j => (j, lower (s.getD j 0))) ++ L.map (fun j => (j, s.getD j 0)) = (j, lower (s.getD j 0)) :: W := by
  cases L with
  | nil => exact absurd rfl hL
  | cons j L => exact ⟨j, _, List.mem_cons_self .., rfl⟩

/-- The condition is needed: whenever the text of an accepted URN has an upper case letter in an escape
of its namespace specific string, there is a schedule of two calls on the same buffer in which one of
them returns a wrong result. -/
theorem C38_same_buffer_refuted (mode : ParsingMode) (hm : KnownMode mode) (s : Bytes) (u : URN) (h : ParsesTo mode s u)
    (x : Nat) (hx : UpperEscape u.SS x) (m : Machine) (hnew : newMachine [withParsingMode mode] = .ok m) :
    ∃ sched : List Bool, ∃ v e,
      ((calls (fun _ : Bool => m) (fun _ => ⟨0, s.length⟩) s).exec (fun _ => ⟨0, s.length⟩) sched).returned true = some (.ok (v, e)) ∧
      v ≠ some u := by
  obtain ⟨L, hs, hw, hL⟩ := C39_writes_accepted mode hm s u h m hnew
  have hne : L ≠ [] := by
    have : 5 + u.ID.length + x ∈ L := (hL _).mpr ⟨by omega, by rw [show 5 + u.ID.length + x - (5 + u.ID.length) = x by omega]; exact hx⟩
    rintro rfl; simp at this
  obtain ⟨j, W, hj, hjw⟩ := noSet_first (s := s) hne
  rw [hjw] at hw
  obtain ⟨hj1, hj2⟩ := (hL j).mp hj
  obtain ⟨c, hc, hup, _⟩ := hj2
  have hclt := lt_of_get hc
  -- the first call, up to its first write
  obtain ⟨k, q, hk⟩ := exec_first (win := fun _ : Bool => (⟨0, s.length⟩ : Window)) (i := false) (n := s.length) rfl _
    (calls (fun _ : Bool => m) (fun _ => ⟨0, s.length⟩) s) rfl hw
  -- the second call, from there to its end
  have hr := reachable_new hnew
  have hlen : (s.set j (lower (s.getD j 0))).length = s.length := List.length_set
  obtain ⟨r, hr1, _, hr2⟩ := parse_alone hr (s.set j (lower (s.getD j 0)))
  rw [hlen] at hr2
  have h2 := exec_alone (win := fun _ : Bool => (⟨0, s.length⟩ : Window)) (i := true) (n := s.length) rfl (m.parseP s.length)
    ((calls (fun _ : Bool => m) (fun _ => ⟨0, s.length⟩) s).put false q (s.set j (lower (s.getD j 0)))) rfl hlen (parseP_bounded _ _)
  refine ⟨List.replicate k false ++ List.replicate ((m.parseP s.length).accesses (s.set j (lower (s.getD j 0)))) true, r.urn, r.err, ?_, ?_⟩
  · rw [exec_append, hk]
    have e : (calls (fun _ : Bool => m) (fun _ => ⟨0, s.length⟩) s).mem = s := rfl
    have e' : ((calls (fun _ : Bool => m) (fun _ => ⟨0, s.length⟩) s).put false q (s.set j (lower (s.getD j 0)))).mem = s.set j (lower (s.getD j 0)) := rfl
    rw [e', hr2] at h2
    simp only [e]
    rw [h2]
    simp only [Sys.returned, Sys.put, if_true]
  · intro hv
    have h' : ParsesTo mode (s.set j (lower (s.getD j 0))) u := by
      have herr : r.err = none := by
        have := C21_never_both m hr _ r hr1
        rw [hv] at this
        simp at this
        exact this
      have hp : parse (s.set j (lower (s.getD j 0))) [withParsingMode mode] = .ok ⟨r.urn, true, r.m.data⟩ := by
        simp only [parse, hnew, Run.ok_bind, hr1, herr]
        rfl
      exact ⟨_, hp, hv⟩
    obtain ⟨pre, rest, h1, h2, _⟩ := parsed_shape hm h
    obtain ⟨pre', rest', h1', h2', _⟩ := parsed_shape hm h'
    have e1 : s[j]? = some c := by
      rw [h1, List.append_assoc, List.getElem?_append_right (by omega)]
      rw [show ((58 : UInt8) :: u.ID ++ 58 :: (u.SS ++ rest)) = (58 :: u.ID ++ [58]) ++ (u.SS ++ rest) by simp]
      rw [List.getElem?_append_right (by simp; omega), List.getElem?_append_left (by simp; omega)]
      rw [← hc]; congr 1; simp; omega
    have e2 : (s.set j (lower (s.getD j 0)))[j]? = some c := by
      rw [h1', List.append_assoc, List.getElem?_append_right (by omega)]
      rw [show ((58 : UInt8) :: u.ID ++ 58 :: (u.SS ++ rest')) = (58 :: u.ID ++ [58]) ++ (u.SS ++ rest') by simp]
      rw [List.getElem?_append_right (by simp; omega), List.getElem?_append_left (by simp; omega)]
      rw [← hc]; congr 1; simp; omega
    have hjlt := lt_of_get e1
    rw [List.getElem?_set_self hjlt] at e2
    have : s.getD j 0 = c := by simp [List.getD_eq_getElem?_getD, e1]
    rw [this] at e2
    injection e2 with e2
    have hne : ∀ c : UInt8, isUpper c = true → lower c ≠ c := forall_byte (by decide +kernel)
    exact hne c hup e2

example : ∃ sched : List Bool, ∃ v e,
    ((calls (fun _ : Bool => Cases.m RFC8141Only) (fun _ => ⟨0, 23⟩) Cases.s8141).exec (fun _ => ⟨0, 23⟩) sched).returned true = some (.ok (v, e)) ∧
      v ≠ some Cases.u8141 :=
  C38_same_buffer_refuted _ Cases.k8141 _ _ Cases.p8141 5 ⟨65, rfl, rfl, Or.inr ⟨by decide, rfl⟩⟩ _ (Cases.new _)

/-- The hypotheses are met by `urn:a:%AA`. -/
example : ParsesTo RFC2141Only (lit "urn:a:%AA") (urn2141 (lit "urn") (lit "a") (lit "%AA")) ∧ UpperEscape (lit "%AA") 1 :=
  ⟨parsesTo_of (by decide), 65, rfl, rfl, Or.inl ⟨by decide, rfl⟩⟩

/-- The buffer itself can be left changed for ever: with two calls on the same buffer, both loops that
lowercase and restore can be interleaved so that the final text is `urn:a:%!A` although both calls have returned
(each reads the letter before the other has written it, then both subtract 32). -/
theorem C38_corrupted_refuted : ∃ sched : List Bool,
    let c := (calls (fun _ : Bool => m2141) (fun _ => ⟨0, 9⟩) (lit "urn:a:%AA")).exec (fun _ => ⟨0, 9⟩) sched
    c.returned true ≠ none ∧ c.returned false ≠ none ∧ c.mem = lit "urn:a:%!A" :=
  ⟨List.replicate 18 true ++ List.replicate 19 false ++ List.replicate 10 true ++ List.replicate 9 false, by decide +kernel⟩

end Urn
