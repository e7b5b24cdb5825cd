import Verif.Cases
/-!
# Properties of `Parse`: robustness, languages, results

C01-C07, C09-C15, C21, C22, C26, C34-C36, C42, C43 of `properties.jsonl`.
-/
set_option autoImplicit false
namespace Urn
open Spec

/-! ## C01: parsing never panics -/

/-- The package level function, with any options (each option may make any calls). -/
theorem C01_parse_returns (s : Bytes) (opts : List Opt) : ∃ r, parse s opts = .ok r := by
  obtain ⟨m, h1, h2⟩ := newMachine_ok opts
  obtain ⟨m', h3, _⟩ := parse_ref m s h2
  simp only [parse, h1, Run.ok_bind, h3]
  split <;> exact ⟨_, rfl⟩

theorem execAll_length {m m' : Machine} {ops : List Op} {outs : List Out} (h : m.execAll ops = .ok (m', outs)) :
    outs.length = ops.length := by
  induction ops generalizing m outs with
  | nil => simp [Machine.execAll] at h; simp [← h.2]
  | cons op ops ih =>
    simp only [Machine.execAll] at h
    cases he : m.exec op with
    | ok x =>
      rw [he, Run.ok_bind] at h
      cases he2 : x.1.execAll ops with
      | ok y =>
        rw [he2] at h
        simp at h
        have := ih (m := x.1) (outs := y.2) (by rw [he2, ← h.1])
        rw [← h.2]; simp [this]
      | panic => rw [he2] at h; simp at h
      | diverge => rw [he2] at h; simp at h
    | panic => rw [he] at h; simp at h
    | diverge => rw [he] at h; simp at h

/-- `NewMachine` with any options, then any sequence of calls on the machine. -/
theorem C01_machine_returns (opts : List Opt) (ops : List Op) :
    ∃ m0 m outs, newMachine opts = .ok m0 ∧ m0.execAll ops = .ok (m, outs) ∧ outs.length = ops.length := by
  obtain ⟨m0, h1, h2⟩ := newMachine_ok opts
  obtain ⟨m, outs, h3, _⟩ := execAll_ok h2 ops
  exact ⟨m0, m, outs, h1, h3, execAll_length h3⟩

/-- The outcomes excluded by C01 do occur in the model: reading outside the buffer panics. -/
example : index (lit "urn") 3 = .error .index ∧ slice (lit "urn") 2 1 = .error .slice ∧
    URN8141.marshalJSON ⟨id, some⟩ ⟨none⟩ = .panic .nilDeref :=
  ⟨rfl, rfl, rfl⟩

/-! ## C02: linear time -/

/-- `n` steps of the loop of `Parse`. -/
inductive Steps : Nat → St → St → Prop where
  | zero (st : St) : Steps 0 st st
  | succ {n : Nat} {st st' st'' : St} : st.ctl ≠ .out → step st = .ok st' → Steps n st' st'' → Steps (n + 1) st st''

theorem steps_of_run {b : Nat} {st : St} {m : Machine} {o : URN} (h : run b st = .ok (m, o)) :
    ∃ n, n ≤ b ∧ Steps n st ⟨.out, m, o⟩ := by
  induction b generalizing st with
  | zero =>
    rcases st with ⟨ctl, m', o'⟩
    cases ctl <;> simp [run] at h
    obtain ⟨rfl, rfl⟩ := h
    exact ⟨0, Nat.le_refl _, .zero _⟩
  | succ b ih =>
    by_cases hc : st.ctl = .out
    · rcases st with ⟨ctl, m', o'⟩
      simp at hc; subst hc
      simp [run] at h
      obtain ⟨rfl, rfl⟩ := h
      exact ⟨0, Nat.zero_le _, .zero _⟩
    · rcases st with ⟨ctl, m', o'⟩
      cases hs : step ⟨ctl, m', o'⟩ with
      | ok st' =>
        have h' : run b st' = .ok (m, o) := by
          cases ctl <;> first | exact absurd rfl hc | (simpa [run, hs] using h)
        obtain ⟨n, h1, h2⟩ := ih h'
        exact ⟨n + 1, by omega, .succ hc hs h2⟩
      | error p => cases ctl <;> first | exact absurd rfl hc | simp [run, hs] at h

/-- The loop of `Parse` on any machine reaches its end after at most `2 * len + 10` steps, and the
values there are what `Parse` returns. -/
theorem C02_linear (m : Machine) (h : Reachable m) (s : Bytes) :
    ∃ n st, n ≤ 2 * s.length + 10 ∧ Steps n (entry (m.init s)) st ∧ st.ctl = .out ∧
      m.parse s = .ok ⟨st.m, (result st.m st.o).1, (result st.m st.o).2⟩ := by
  obtain ⟨m', o, h1, _⟩ := run_entry m s h.start
  obtain ⟨n, h2, h3⟩ := steps_of_run h1
  have h4 := run_mono h1 (b' := fuelFor s.length) (by simp [fuelFor]; omega)
  exact ⟨n, _, h2, h3, rfl, by simp only [Machine.parse, h4, Run.ok_bind, Run.pure_eq]⟩

example : ∃ n st, n ≤ 56 ∧ Steps n (entry ((Cases.m RFC8141Only).init Cases.s8141)) st ∧ st.ctl = .out := by
  obtain ⟨n, st, h1, h2, h3, _⟩ := C02_linear (Cases.m RFC8141Only) (Cases.reach _) Cases.s8141
  exact ⟨n, st, h1, h2, h3⟩

/-! ## C03: the buffer is restored -/

theorem C03_buffer_restored (s : Bytes) (opts : List Opt) (r : ParseResult) (h : parse s opts = .ok r) : r.buf = s := by
  obtain ⟨m, h1, h2⟩ := newMachine_ok opts
  obtain ⟨m', h3, h4, _⟩ := parse_ref m s h2
  simp only [parse, h1, Run.ok_bind, h3] at h
  split at h <;> simp at h <;> rw [← h] <;> exact h4

example : ∃ r, parse Cases.s2141 [withParsingMode RFC2141Only] = .ok r ∧ r.buf = Cases.s2141 := by
  obtain ⟨r, h⟩ := C01_parse_returns Cases.s2141 [withParsingMode RFC2141Only]
  exact ⟨r, h, C03_buffer_restored _ _ _ h⟩

/-- The same for the method, on any machine. -/
theorem C03_buffer_restored_machine (m : Machine) (hm : Reachable m) (s : Bytes) (r : Parsed) (h : m.parse s = .ok r) :
    r.m.data = s := by
  obtain ⟨m', h3, h4, _⟩ := parse_ref m s hm.start
  rw [h3] at h; simp at h; rw [← h]; exact h4

example : ∃ r, (Cases.m RFC2141Only).parse Cases.s2141 = .ok r ∧ r.m.data = Cases.s2141 := by
  obtain ⟨r, h, _⟩ := Cases.parses RFC2141Only Cases.s2141
  exact ⟨r, h, C03_buffer_restored_machine _ (Cases.reach _) _ _ h⟩

/-- The buffer is written to on the way: there is a case where it has to be restored. -/
example : shiftAll 0 32 [0] (lit "A") = .ok (lit "a") := rfl

/-! ## C04, C05: the language of RFC 2141 mode -/

theorem C04_sound (s : Bytes) (u : URN) (h : ParsesTo RFC2141Only s u) : ∃ pre nid nss, Urn2141 s pre nid nss := by
  revert h; intro hw; obtain ⟨pre, nid, nss, h, _⟩ := parsesTo_2141.mp hw
  exact ⟨pre, nid, nss, h⟩

example : ∃ pre nid nss, Urn2141 (lit "URN:x-Y:%2Fa:B") pre nid nss := C04_sound _ Cases.u2141 Cases.p2141

/-- The exact language: well-formed, and not (byte 4 is `u` or `U` and byte 7 is a colon). -/
theorem C05_exact (s : Bytes) : Accepts RFC2141Only s ↔
    (∃ pre nid nss, Urn2141 s pre nid nss) ∧ ¬ ((s[4]? = some 117 ∨ s[4]? = some 85) ∧ s[7]? = some 58) := by
  rw [← lookahead_iff]
  constructor
  · rintro ⟨u, h⟩
    revert h; intro hw; obtain ⟨pre, nid, nss, h, hl, _⟩ := parsesTo_2141.mp hw
    exact ⟨⟨pre, nid, nss, h⟩, by simp [hl]⟩
  · rintro ⟨⟨pre, nid, nss, h⟩, hl⟩
    exact ⟨_, parsesTo_2141.mpr ⟨pre, nid, nss, h, by simpa using hl, rfl⟩⟩

/-- In particular every well-formed URN whose identifier does not start with `u` or `U` is accepted,
and so is every one whose eighth byte is not a colon. -/
theorem C05_complete (s pre nid nss : Bytes) (h : Urn2141 s pre nid nss)
    (hu : (nid.head? ≠ some 117 ∧ nid.head? ≠ some 85) ∨ s[7]? ≠ some 58) : Accepts RFC2141Only s := by
  rw [C05_exact]
  refine ⟨⟨pre, nid, nss, h⟩, ?_⟩
  rintro ⟨h4, h7⟩
  rcases hu with hu | hu
  · obtain ⟨a, b, c, rfl, _⟩ := isUrn_iff.mp h.hpre
    have e4 : s[4]? = nid.head? := by
      rw [h.eq]
      cases hn : nid with
      | nil => exact absurd hn h.hnid.nonempty
      | cons d t => simp
    rw [e4] at h4
    rcases h4 with h4 | h4
    · exact hu.1 h4
    · exact hu.2 h4
  · exact hu h7

example : Accepts RFC2141Only Cases.s2141 := C05_complete _ _ _ _ Cases.w2141 (Or.inl (by decide))

/-- Not every well-formed URN is accepted: two well-formed URNs that it rejects. -/
theorem C05_refuted : (Urn2141 (lit "urn:uci:x") (lit "urn") (lit "uci") (lit "x") ∧ ¬ Accepts RFC2141Only (lit "urn:uci:x")) ∧
    (Urn2141 (lit "urn:u:a:b") (lit "urn") (lit "u") (lit "a:b") ∧ ¬ Accepts RFC2141Only (lit "urn:u:a:b")) := by
  have n1 : Nss2141 (lit "x") := ⟨by decide, .char (by decide) .nil⟩
  have n2 : Nss2141 (lit "a:b") := ⟨by decide, .char (by decide) (.char (by decide) (.char (by decide) .nil))⟩
  refine ⟨⟨⟨by decide, by unfold IsUrn; decide, ⟨by decide, by decide, by decide, by decide, by unfold IsUrn; decide⟩, n1⟩, ?_⟩,
    ⟨⟨by decide, by unfold IsUrn; decide, ⟨by decide, by decide, by decide, by decide, by unfold IsUrn; decide⟩, n2⟩, ?_⟩⟩
  · exact not_accepts_of (by decide)
  · exact not_accepts_of (by decide)

/-! ## C06, C07: results of RFC 2141 mode -/

theorem C06_pieces (s : Bytes) (u : URN) (h : ParsesTo RFC2141Only s u) :
    s = u.prefix ++ lit ":" ++ u.ID ++ lit ":" ++ u.SS ∧ 58 ∉ u.prefix ∧ 58 ∉ u.ID ∧ IsUrn u.prefix ∧
      u.rfc = .RFC2141 ∧ u.isSCIM = false ∧ u.getSCIM = none ∧ u.getR = [] ∧ u.getQ = [] ∧ u.getF = [] := by
  revert h; intro hw; obtain ⟨pre, nid, nss, h, _, rfl⟩ := parsesTo_2141.mp hw
  refine ⟨?_, h.hpre.noColon, h.hnid.noColon, h.hpre, rfl, rfl, rfl, rfl, rfl, rfl⟩
  rw [h.eq]; simp [urn2141, lit]

example : Cases.u2141.prefix = lit "URN" ∧ Cases.u2141.ID = lit "x-Y" ∧ Cases.u2141.SS = lit "%2Fa:B" ∧
    Cases.s2141 = Cases.u2141.prefix ++ lit ":" ++ Cases.u2141.ID ++ lit ":" ++ Cases.u2141.SS :=
  ⟨rfl, rfl, rfl, (C06_pieces _ _ Cases.p2141).1⟩

theorem C07_round_trip (s : Bytes) (u : URN) (h : ParsesTo RFC2141Only s u) : u.string = s := by
  revert h; intro hw; obtain ⟨pre, nid, nss, h, _, rfl⟩ := parsesTo_2141.mp hw
  exact urn2141_string h

example : Cases.u2141.string = Cases.s2141 := C07_round_trip _ _ Cases.p2141

/-! ## C09, C10, C11: SCIM -/

theorem C09_exact (s : Bytes) : Accepts RFC7643Only s ↔ ∃ pre kw ty name tail other, UrnScim s pre kw ty name tail other := by
  constructor
  · rintro ⟨u, h⟩
    revert h; intro hw; obtain ⟨pre, kw, ty, name, tail, other, h, _⟩ := parsesTo_7643.mp hw
    exact ⟨pre, kw, ty, name, tail, other, h⟩
  · rintro ⟨pre, kw, ty, name, tail, other, h⟩
    exact ⟨_, parsesTo_7643.mpr ⟨pre, kw, ty, name, tail, other, h, rfl⟩⟩

/-- Both alternatives of the tail are accepted, and the case of the namespace matters. -/
example : Accepts RFC7643Only (lit "urn:ietf:params:scim:api:v2") ∧
    Accepts RFC7643Only (lit "URN:ietf:params:scim:schemas:core:2.0%3AUser") ∧
    ¬ Accepts RFC7643Only (lit "urn:IETF:params:scim:api:v2") :=
  ⟨⟨_, parsesTo_of (u := urnScim (lit "urn") (lit "api") 2 (lit "v2") [] []) (by decide)⟩,
   ⟨_, parsesTo_of (u := urnScim (lit "URN") (lit "schemas") 1 (lit "core") (lit ":2.0%3AUser") (lit "2.0%3AUser")) (by decide)⟩,
   not_accepts_of (by decide)⟩

theorem C10_pieces (s : Bytes) (u : URN) (h : ParsesTo RFC7643Only s u) :
    ∃ kw tail x, u.getSCIM = some x ∧ u.ID = lit "ietf:params:scim" ∧ s = u.prefix ++ lit ":" ++ u.ID ++ lit ":" ++ u.SS ∧
      u.SS = kw ++ lit ":" ++ x.Name ++ tail ∧ ScimType kw x.Typ ∧ ScimName x.Name ∧
      (tail = [] ∧ x.Other = [] ∨ tail = lit ":" ++ x.Other ∧ Nss2141 x.Other) ∧ IsUrn u.prefix ∧
      x.Typ ≠ SchemaType.Unsupported ∧ u.rfc = .RFC7643 ∧ u.isSCIM = true ∧ u.string = s ∧
      u.getR = [] ∧ u.getQ = [] ∧ u.getF = [] := by
  revert h; intro hw; obtain ⟨pre, kw, ty, name, tail, other, h, rfl⟩ := parsesTo_7643.mp hw
  refine ⟨kw, tail, _, rfl, rfl, ?_, ?_, h.hkw, h.hname, ?_, h.hpre, ?_, rfl, rfl, urnScim_string h, rfl, rfl, rfl⟩
  · rw [h.eq]; simp [urnScim, lit]
  · simp [urnScim, lit]
  · cases h.htail with
    | none => exact Or.inl ⟨rfl, rfl⟩
    | some ho => exact Or.inr ⟨rfl, ho⟩
  · show ty ≠ _; cases h.hkw <;> decide

example : ∃ x, Cases.u7643.getSCIM = some x ∧ x.Name = lit "core" ∧ x.Other = lit "2.0%3AUser" ∧ x.Typ ≠ SchemaType.Unsupported := by
  obtain ⟨kw, tail, x, hx, _, _, _, _, _, _, _, ht, _⟩ := C10_pieces _ _ Cases.p7643
  cases hx
  exact ⟨_, rfl, rfl, rfl, ht⟩

theorem C11_scim_is_2141 (s : Bytes) (u : URN) (h : ParsesTo RFC7643Only s u) :
    ∃ v, ParsesTo RFC2141Only s v ∧ v.ID = lit "ietf" ∧ v.string = u.string ∧ v.SS = lit "params:scim:" ++ u.SS := by
  revert h; intro hw; obtain ⟨pre, kw, ty, name, tail, other, h, rfl⟩ := parsesTo_7643.mp hw
  have hseq : PctSeq isSss (lit "params:scim:" ++ (kw ++ 58 :: (name ++ tail))) := by
    have hal : ∀ w : Bytes, (∀ c ∈ w, isSss c = true) → ∀ t, PctSeq isSss t → PctSeq isSss (w ++ t) := by
      intro w hw t ht
      induction w with
      | nil => exact ht
      | cons c w ih => exact .char (hw c (by simp)) (ih (fun d hd => hw d (by simp [hd])))
    have halnum : ∀ c : UInt8, isAlnum c = true → isSss c = true := by intro c hc; simp [isSss, hc]
    refine hal _ (by decide) _ (hal _ (fun c hc => halnum c (h.hkw.bytes c hc)) _ (.char (by decide) (hal _ (fun c hc => halnum c (h.hname.2 c hc)) _ ?_)))
    cases h.htail with
    | none => exact .nil
    | some ho => exact .char (by decide) ho.2
  have hu : Urn2141 s pre (lit "ietf") (lit "params:scim:" ++ (kw ++ 58 :: (name ++ tail))) := by
    refine ⟨?_, h.hpre, ⟨by decide, by decide, by decide, by decide, by unfold IsUrn; decide⟩, by simp [lit], hseq⟩
    rw [h.eq]; simp [lit]
  have hl : lookahead s = false := by
    obtain ⟨a, b, c, rfl, _⟩ := isUrn_iff.mp h.hpre
    rw [h.eq]
    simp [lookahead, lit]
  refine ⟨_, parsesTo_2141.mpr ⟨_, _, _, hu, hl, rfl⟩, rfl, ?_, rfl⟩
  rw [urn2141_string hu, urnScim_string h]

example : ∃ v, ParsesTo RFC2141Only Cases.s7643 v ∧ v.SS = lit "params:scim:schemas:core:2.0%3AUser" := by
  obtain ⟨v, h1, _, _, h2⟩ := C11_scim_is_2141 _ _ Cases.p7643
  exact ⟨v, h1, h2⟩

/-! ## C12, C13, C14: RFC 8141 -/

theorem C12_exact (s : Bytes) : Accepts RFC8141Only s ↔ ∃ pre nid nss r q f, Urn8141 s pre nid nss r q f := by
  constructor
  · rintro ⟨u, h⟩
    revert h; intro hw; obtain ⟨pre, nid, nss, r, q, f, h, _⟩ := parsesTo_8141.mp hw
    exact ⟨pre, nid, nss, r, q, f, h⟩
  · rintro ⟨pre, nid, nss, r, q, f, h⟩
    exact ⟨_, parsesTo_8141.mpr ⟨pre, nid, nss, r, q, f, h, rfl⟩⟩

/-- All the components together; and a second r-component is rejected. -/
example : ParsesTo RFC8141Only (lit "urn:ab:c/d?+r?=q#f")
      (urn8141 (lit "urn") (lit "ab") (lit "c/d") (some (lit "r")) (some (lit "q")) (some (lit "f"))) ∧
    ¬ Accepts RFC8141Only (lit "urn:ab:c?+r?+s") :=
  ⟨parsesTo_of (by decide), not_accepts_of (by decide)⟩

theorem C13_pieces (s : Bytes) (u : URN) (h : ParsesTo RFC8141Only s u) :
    ∃ pre r q f, s = pre ++ lit ":" ++ u.ID ++ lit ":" ++ u.SS ++ opt (lit "?+") r ++ opt (lit "?=") q ++ opt (lit "#") f ∧
      Urn8141 s pre u.ID u.SS r q f ∧ u.getR = r.getD [] ∧ u.getQ = q.getD [] ∧ u.getF = f.getD [] ∧
      (r = some [] → False) ∧ (q = some [] → False) ∧
      u.rfc = .RFC8141 ∧ u.isSCIM = false ∧ u.getSCIM = none := by
  revert h; intro hw; obtain ⟨pre, nid, nss, r, q, f, h, rfl⟩ := parsesTo_8141.mp hw
  refine ⟨pre, r, q, f, ?_, h, rfl, rfl, rfl, fun hr => (h.hr _ hr).ne rfl, fun hq => (h.hq _ hq).ne rfl, rfl, rfl, rfl⟩
  rw [h.eq]; simp [urn8141, lit]

example : Cases.u8141.getR = lit "r" ∧ Cases.u8141.getQ = lit "q" ∧ Cases.u8141.getF = lit "f" ∧
    ∃ pre r q f, Urn8141 Cases.s8141 pre Cases.u8141.ID Cases.u8141.SS r q f := by
  obtain ⟨pre, r, q, f, _, h, _⟩ := C13_pieces _ _ Cases.p8141
  exact ⟨rfl, rfl, rfl, pre, r, q, f, h⟩

/-- Exactly when the text comes back: there is no empty fragment, and the prefix has the same
letters as the identifier if that starts with `urn-`. -/
theorem C14_exact (s pre nid nss : Bytes) (r q f : Option Bytes) (u : URN) (h : Urn8141 s pre nid nss r q f)
    (hu : ParsesTo RFC8141Only s u) :
    u.string = s ↔ f ≠ some [] ∧ ((∃ p t, nid = p ++ 45 :: t ∧ IsUrn p) → nid.take 3 = pre) := by
  have hu' := parsesTo_unique hu (parsesTo_8141.mpr ⟨pre, nid, nss, r, q, f, h, rfl⟩)
  subst hu'
  rw [urn8141_string h, ← startsUrn_iff]
  constructor
  · intro e
    rw [h.eq] at e
    have h1 : pre8141 pre nid = pre := by
      have e' := e
      simp only [List.append_assoc, List.cons_append] at e'
      exact List.append_inj_left e' (by rw [(pre8141_urn h.hpre).length, h.hpre.length])
    constructor
    · rintro rfl
      rw [h1] at e
      simp [opt, dropEmpty, lit] at e
    · intro hs
      simpa [pre8141, hs] using h1
  · rintro ⟨h1, h2⟩
    have e1 : dropEmpty f = f := by
      cases f with
      | none => rfl
      | some w => cases w with
        | nil => exact absurd rfl h1
        | cons => rfl
    have e2 : pre8141 pre nid = pre := by
      simp only [pre8141]
      split
      · rename_i hs; exact h2 hs
      · rfl
    rw [e1, e2]
    exact h.eq.symm

example : Cases.u8141.string = Cases.s8141 ↔
    some (lit "f") ≠ some [] ∧ ((∃ p t, lit "Ab-1" = p ++ 45 :: t ∧ IsUrn p) → (lit "Ab-1").take 3 = lit "urn") :=
  C14_exact _ _ _ _ _ _ _ _ Cases.w8141 Cases.p8141

/-- In particular the text comes back when the fragment is not empty and the prefix is the letters
at the start of an identifier that starts with `urn-`. -/
theorem C14_round_trip (s pre nid nss : Bytes) (r q f : Option Bytes) (u : URN) (h : Urn8141 s pre nid nss r q f)
    (hu : ParsesTo RFC8141Only s u) (hf : f ≠ some []) (hp : pre = lit "urn" → ¬ ∃ p t, nid = p ++ 45 :: t ∧ IsUrn p ∧ p ≠ lit "urn")
    (hp' : pre ≠ lit "urn" → ¬ ∃ p t, nid = p ++ 45 :: t ∧ IsUrn p) : u.string = s := by
  rw [C14_exact s pre nid nss r q f u h hu]
  refine ⟨hf, ?_⟩
  rintro ⟨p, t, e, hi⟩
  by_cases hpre : pre = lit "urn"
  · have : p = lit "urn" := Classical.byContradiction fun hne => hp hpre ⟨p, t, e, hi, hne⟩
    subst this
    rw [e, hpre]; rfl
  · exact absurd ⟨p, t, e, hi⟩ (hp' hpre)

example : Cases.u8141.string = Cases.s8141 := by
  refine C14_round_trip _ _ _ _ _ _ _ _ Cases.w8141 Cases.p8141 (by decide) ?_ ?_
  · rintro _ ⟨p, t, e, hp, _⟩
    obtain ⟨a, b, c, rfl, _⟩ := isUrn_iff.mp hp
    simp [lit] at e
  · intro h; exact absurd rfl h

/-- Two accepted inputs whose text is not given back. -/
theorem C14_refuted : (∃ u, ParsesTo RFC8141Only (lit "urn:ab:c#") u ∧ u.string = lit "urn:ab:c") ∧
    (∃ u, ParsesTo RFC8141Only (lit "URN:urn-7:x") u ∧ u.string = lit "urn:urn-7:x") :=
  ⟨⟨urn8141 (lit "urn") (lit "ab") (lit "c") none none (some []), parsesTo_of (by decide), by decide⟩,
   ⟨urn8141 (lit "URN") (lit "urn-7") (lit "x") none none none, parsesTo_of (by decide), by decide⟩⟩

/-! ## C15: parsing the text again -/

theorem C15_stable (mode : ParsingMode) (hm : KnownMode mode) (s : Bytes) (u : URN) (h : ParsesTo mode s u) :
    ParsesTo mode u.string u := by
  rcases hm with rfl | rfl | rfl
  · rw [C07_round_trip s u h]; exact h
  · obtain ⟨_, _, _, _, _, _, _, _, _, _, _, _, _, _, he, _⟩ := C10_pieces s u h
    rw [he]; exact h
  · revert h; intro hw; obtain ⟨pre, nid, nss, r, q, f, h, rfl⟩ := parsesTo_8141.mp hw
    exact parsesTo_8141.mpr ⟨_, _, _, _, _, _, h.reprint, (urn8141_reprint pre nid nss r q f).symm⟩

/-- The text printed is another one. -/
example : ParsesTo RFC8141Only (lit "urn:ab:c") (urn8141 (lit "urn") (lit "ab") (lit "c") none none (some [])) :=
  C15_stable RFC8141Only (Or.inr (Or.inr rfl)) (lit "urn:ab:c#") (urn8141 (lit "urn") (lit "ab") (lit "c") none none (some []))
    (parsesTo_of (by decide))

/-! ## C21, C22: exactly one of a URN and an error -/

/-- Never both, whatever the machine. -/
theorem C21_never_both (m : Machine) (hm : Reachable m) (s : Bytes) (r : Parsed) (h : m.parse s = .ok r) :
    r.urn = none ∨ r.err = none := by
  obtain ⟨m', h1, _, _, _⟩ := parse_ref m s hm.start
  rw [h1] at h; simp at h; subst h
  rcases hm.start with h0 | h0 | h0 | h0 <;> simp only [refFrom, h0]
  · simp
  · rcases ref2141_or (flagsOf m.parsingMode) s with ⟨u, e⟩ | ⟨u, e⟩ <;> simp [e]
  · rcases refScim_or (flagsOf m.parsingMode) s with ⟨u, e⟩ | ⟨u, e⟩ <;> simp [e]
  · rcases ref8141_or (flagsOf m.parsingMode) s with ⟨u, e⟩ | ⟨u, e⟩ | e <;> simp [e]

example : ∃ r, (Cases.m RFC8141Only).parse Cases.s8141 = .ok r ∧ r.urn = some Cases.u8141 ∧ (r.urn = none ∨ r.err = none) := by
  obtain ⟨r, h, hu, _⟩ := Cases.parses RFC8141Only Cases.s8141
  exact ⟨r, h, hu.trans (by decide), C21_never_both _ (Cases.reach _) _ _ h⟩

/-- In RFC 2141 and RFC 7643 mode exactly one of the two is returned. -/
theorem C21_exactly_one (mode : ParsingMode) (hmode : mode = RFC2141Only ∨ mode = RFC7643Only) (s : Bytes)
    (m : Machine) (hm : newMachine [withParsingMode mode] = .ok m) (r : Parsed) (h : m.parse s = .ok r) :
    (r.urn ≠ none ∧ r.err = none) ∨ (r.urn = none ∧ r.err ≠ none) := by
  rw [newMachine_mode] at hm; simp at hm; subst hm
  obtain ⟨m', h1, _⟩ := parse_ref { startParsingAt := startOf mode, parsingMode := mode, parsingModeSet := true }
    s (start_startOf mode)
  rw [h1] at h; simp at h; subst h
  rcases hmode with rfl | rfl
  · show (ref2141 ⟨true, true⟩ s).1 ≠ none ∧ (ref2141 ⟨true, true⟩ s).2 = none ∨ (ref2141 ⟨true, true⟩ s).1 = none ∧ (ref2141 ⟨true, true⟩ s).2 ≠ none
    rcases ref2141_or ⟨true, true⟩ s with ⟨u, e⟩ | ⟨u, e⟩ <;> simp [e]
  · show (refScim ⟨false, true⟩ s).1 ≠ none ∧ (refScim ⟨false, true⟩ s).2 = none ∨ (refScim ⟨false, true⟩ s).1 = none ∧ (refScim ⟨false, true⟩ s).2 ≠ none
    rcases refScim_or ⟨false, true⟩ s with ⟨u, e⟩ | ⟨u, e⟩ <;> simp [e]

/-- Both alternatives occur. -/
example : (∃ r, (Cases.m RFC7643Only).parse Cases.s7643 = .ok r ∧ r.urn ≠ none ∧ r.err = none) ∧
    (∃ r, (Cases.m RFC2141Only).parse (lit "urn:ab") = .ok r ∧ r.urn = none ∧ r.err ≠ none) := by
  obtain ⟨r, h, hu, _⟩ := Cases.parses RFC7643Only Cases.s7643
  obtain ⟨r', h', hu', _⟩ := Cases.parses RFC2141Only (lit "urn:ab")
  have e : r.urn = some Cases.u7643 := hu.trans (by decide)
  have e' : r'.urn = none := hu'.trans (by decide)
  have k := C21_exactly_one _ (Or.inr rfl) _ _ (Cases.new _) _ h
  have k' := C21_exactly_one _ (Or.inl rfl) _ _ (Cases.new _) _ h'
  simp only [e, e', ne_eq, reduceCtorEq, not_false_eq_true, not_true_eq_false, true_and, false_and, or_false, false_or] at k k'
  exact ⟨⟨r, h, by simp [e], k⟩, ⟨r', h', e', k'⟩⟩

/-- In RFC 8141 mode, neither is returned exactly for the texts described by `Silent8141`. -/
theorem C21_neither_8141 (s : Bytes) (m : Machine) (hm : newMachine [withParsingMode RFC8141Only] = .ok m) (r : Parsed)
    (h : m.parse s = .ok r) : (r.urn = none ∧ r.err = none) ↔ Silent8141 s := by
  unfold Silent8141
  rw [newMachine_mode] at hm; simp at hm; subst hm
  obtain ⟨m', h1, _⟩ := parse_ref { startParsingAt := startOf RFC8141Only, parsingMode := RFC8141Only, parsingModeSet := true }
    s (start_startOf RFC8141Only)
  rw [h1] at h; simp at h; subst h
  show (ref8141 ⟨true, false⟩ s).1 = none ∧ (ref8141 ⟨true, false⟩ s).2 = none ↔ _
  have : ((ref8141 ⟨true, false⟩ s).1 = none ∧ (ref8141 ⟨true, false⟩ s).2 = none) ↔ ref8141 ⟨true, false⟩ s = (none, none) := by
    generalize ref8141 ⟨true, false⟩ s = x; obtain ⟨a, b⟩ := x; simp
  rw [this, ref8141_nil]
  simp only [Bool.false_eq_true, false_and, not_false_eq_true, and_true]
  constructor
  · intro hs
    cases hs with
    | qm pre nid nss t h h43 h61 =>
      refine Or.inl ⟨pre ++ 58 :: nid ++ 58 :: nss, t, pre, nid, nss, ⟨by simp [opt], h.hpre, h.hnid, h.hnss, by simp, by simp, by simp⟩, ?_, h43, h61⟩
      rw [h.eq]; simp [opt]
    | frag pre nid nss r q f h hf hst =>
      obtain ⟨g, c, t, rfl, hg, hc⟩ := hst rfl
      refine Or.inr ⟨pre ++ 58 :: nid ++ 58 :: nss ++ opt (lit "?+") r ++ opt (lit "?=") q, g, c, t, pre, nid, nss, r, q,
        ⟨by simp [opt], h.hpre, h.hnid, h.hnss, h.hr, h.hq, by simp⟩, ?_, hg, hc⟩
      rw [h.eq]; simp
  · rintro (⟨b, t, pre, nid, nss, h, rfl, h43, h61⟩ | ⟨b, g, c, t, pre, nid, nss, r, q, h, rfl, hg, hc⟩)
    · refine .qm pre nid nss t ⟨?_, h.hpre, h.hnid, h.hnss, by simp, by simp⟩ h43 h61
      rw [h.eq]; simp [opt]
    · refine .frag pre nid nss r q (g ++ c :: t) ⟨?_, h.hpre, h.hnid, h.hnss, h.hr, h.hq⟩ ?_ (fun _ => ⟨g, c, t, rfl, hg, hc⟩)
      · rw [h.eq]; simp [opt]
      · intro hf
        have hmem := hf.mem c (by simp)
        rcases hmem with h | h | h
        · rw [hc.2] at h; simp at h
        · exact hc.1 h
        · have : isPcharSlashQ c = true := by simp [isPcharSlashQ, isPchar, isSss, h]
          rw [hc.2] at this; simp at this

example : Silent8141 (lit "urn:ab:c?x") ∧ ¬ Silent8141 Cases.s8141 := by
  obtain ⟨r, h, hu, he⟩ := Cases.parses RFC8141Only (lit "urn:ab:c?x")
  obtain ⟨r', h', hu', _⟩ := Cases.parses RFC8141Only Cases.s8141
  have e : r'.urn = some Cases.u8141 := hu'.trans (by decide)
  refine ⟨(C21_neither_8141 _ _ (Cases.new _) _ h).mp ⟨hu.trans (by decide), he.trans (by decide)⟩, fun hs => ?_⟩
  have := (C21_neither_8141 _ _ (Cases.new _) _ h').mpr hs
  simp [e] at this

/-- For an unknown mode (in particular `Default`), neither is ever returned. -/
theorem C21_neither_unknown (mode : ParsingMode) (hmode : ¬ KnownMode mode) (s : Bytes)
    (m : Machine) (hm : newMachine [withParsingMode mode] = .ok m) (r : Parsed) (h : m.parse s = .ok r) :
    r.urn = none ∧ r.err = none := by
  rw [newMachine_mode] at hm; simp at hm; subst hm
  obtain ⟨m', h1, _⟩ := parse_ref { startParsingAt := startOf mode, parsingMode := mode, parsingModeSet := true }
    s (start_startOf mode)
  rw [h1] at h; simp at h; subst h
  have h0 : startOf mode = 0 := by
    simp only [KnownMode, not_or] at hmode
    simp [startOf, hmode]
  simp [refFrom, h0]

example : ∃ r, (Cases.m 7).parse Cases.s2141 = .ok r ∧ r.urn = none ∧ r.err = none := by
  obtain ⟨r, h, _⟩ := Cases.parses 7 Cases.s2141
  exact ⟨r, h, C21_neither_unknown 7 (by unfold KnownMode; decide) _ _ (Cases.new _) _ h⟩

/-- So the exceptions exist: `nil, nil`. -/
theorem C21_refuted : ∃ m r, newMachine [withParsingMode RFC8141Only] = .ok m ∧ m.parse (lit "urn:ab:c?x") = .ok r ∧
    r.urn = none ∧ r.err = none := by
  obtain ⟨m', h1, _⟩ := parse_ref { startParsingAt := startOf RFC8141Only, parsingMode := RFC8141Only, parsingModeSet := true }
    (lit "urn:ab:c?x") (start_startOf RFC8141Only)
  exact ⟨_, _, newMachine_mode _, h1, (by decide : (refMode RFC8141Only (lit "urn:ab:c?x")).1 = none),
    (by decide : (refMode RFC8141Only (lit "urn:ab:c?x")).2 = none)⟩

/-- In RFC 2141 and RFC 7643 mode the boolean tells whether there is a URN (and without a mode). -/
theorem C22_ok_iff (mode : ParsingMode) (hmode : mode = RFC2141Only ∨ mode = RFC7643Only) (s : Bytes) :
    (∀ r, parse s [withParsingMode mode] = .ok r → (r.ok = true ↔ r.urn ≠ none)) ∧
    (∀ r, parse s = .ok r → (r.ok = true ↔ r.urn ≠ none)) := by
  have key : ∀ mode : ParsingMode, mode = RFC2141Only ∨ mode = RFC7643Only →
      ∀ r, parse s [withParsingMode mode] = .ok r → (r.ok = true ↔ r.urn ≠ none) := by
    intro mode hmode r h
    rw [parse_mode] at h
    rcases hmode with rfl | rfl
    · rw [refMode_2141] at h
      rcases ref2141_or ⟨true, true⟩ s with ⟨u, e⟩ | ⟨u, e⟩ <;> rw [e] at h <;> simp at h <;> simp [← h]
    · rw [refMode_7643] at h
      rcases refScim_or ⟨false, true⟩ s with ⟨u, e⟩ | ⟨u, e⟩ <;> rw [e] at h <;> simp at h <;> simp [← h]
  refine ⟨key mode hmode, fun r h => key RFC2141Only (Or.inl rfl) r ?_⟩
  rw [← parse_default]; exact h

example : ∃ r, parse Cases.s2141 = .ok r ∧ (r.ok = true ↔ r.urn ≠ none) := by
  obtain ⟨r, h⟩ := C01_parse_returns Cases.s2141 []
  exact ⟨r, h, (C22_ok_iff RFC2141Only (Or.inl rfl) _).2 r h⟩

/-- Whatever the options, a non-nil URN comes with `true`. -/
theorem C22_urn_ok (s : Bytes) (opts : List Opt) (r : ParseResult) (h : parse s opts = .ok r) (hu : r.urn ≠ none) : r.ok = true := by
  obtain ⟨m, h1, h2⟩ := newMachine_ok opts
  obtain ⟨m', h3, h4, _⟩ := parse_ref m s h2
  simp only [parse, h1, Run.ok_bind, h3] at h
  split at h <;> simp at h <;> subst h <;> simp_all

example : ∃ r, parse Cases.s8141 [withParsingMode RFC8141Only] = .ok r ∧ r.ok = true := by
  obtain ⟨r, h, hu⟩ := Cases.p8141
  exact ⟨r, h, C22_urn_ok _ _ _ h (by simp [hu])⟩

/-- Whatever the options, `nil, true` is returned exactly when `(Machine).Parse` returns neither a URN nor an error. -/
theorem C22_nil_true (s : Bytes) (opts : List Opt) (r : ParseResult) (h : parse s opts = .ok r) :
    (r.urn = none ∧ r.ok = true) ↔ ∃ m p, newMachine opts = .ok m ∧ m.parse s = .ok p ∧ p.urn = none ∧ p.err = none := by
  obtain ⟨m, h1, h2⟩ := newMachine_ok opts
  obtain ⟨m', h3, h4, _⟩ := parse_ref m s h2
  simp only [parse, h1, Run.ok_bind, h3] at h
  simp only [h1, Run.ok.injEq, exists_and_left, exists_eq_left', h3]
  split at h <;> rename_i he <;> simp at h <;> subst h <;> simp [he]

example : ∃ m p, newMachine [withParsingMode RFC8141Only] = .ok m ∧ m.parse (lit "urn:ab:c?") = .ok p ∧ p.urn = none ∧ p.err = none :=
  (C22_nil_true (lit "urn:ab:c?") [withParsingMode RFC8141Only] ⟨none, true, lit "urn:ab:c?"⟩ (by rw [parse_mode]; decide)).mp ⟨rfl, rfl⟩

/-- In RFC 8141 mode: the boolean tells whether there is a URN, except exactly for the texts described
by `Silent8141`. -/
theorem C22_8141 (s : Bytes) (r : ParseResult) (h : parse s [withParsingMode RFC8141Only] = .ok r) :
    (r.ok = true ↔ r.urn ≠ none) ↔ ¬ Silent8141 s := by
  have h1 := C22_nil_true s _ r h
  have h2 := C22_urn_ok s _ r h
  have h3 : (∃ m p, newMachine [withParsingMode RFC8141Only] = .ok m ∧ m.parse s = .ok p ∧ p.urn = none ∧ p.err = none) ↔ Silent8141 s := by
    constructor
    · rintro ⟨m, p, hm, hp, hn⟩
      exact (C21_neither_8141 s m hm p hp).mp hn
    · intro hs
      obtain ⟨m', hp, _⟩ := parse_ref { startParsingAt := startOf RFC8141Only, parsingMode := RFC8141Only, parsingModeSet := true }
        s (start_startOf RFC8141Only)
      exact ⟨_, _, newMachine_mode _, hp, (C21_neither_8141 s _ (newMachine_mode _) _ hp).mpr hs⟩
  rw [h3] at h1
  rw [← h1]
  cases hu : r.urn <;> simp_all

example : ¬ Silent8141 Cases.s8141 := by
  obtain ⟨r, h, hu⟩ := Cases.p8141
  exact (C22_8141 _ r h).mp (by simp [C22_urn_ok _ _ _ h (by simp [hu]), hu])

/-- For an unknown mode `nil, true` is always returned. -/
theorem C22_unknown (mode : ParsingMode) (hmode : ¬ KnownMode mode) (s : Bytes) (r : ParseResult)
    (h : parse s [withParsingMode mode] = .ok r) : r.urn = none ∧ r.ok = true := by
  obtain ⟨m', hp, _⟩ := parse_ref { startParsingAt := startOf mode, parsingMode := mode, parsingModeSet := true }
    s (start_startOf mode)
  exact (C22_nil_true s _ r h).mpr ⟨_, _, newMachine_mode _, hp, C21_neither_unknown mode hmode s _ (newMachine_mode _) _ hp⟩

example : ∃ r, parse Cases.s2141 [withParsingMode 7] = .ok r ∧ r.urn = none ∧ r.ok = true := by
  obtain ⟨r, h⟩ := C01_parse_returns Cases.s2141 [withParsingMode 7]
  exact ⟨r, h, C22_unknown 7 (by unfold KnownMode; decide) _ r h⟩

/-- So the exceptions exist: `nil, true`. -/
theorem C22_refuted : parse (lit "urn:ab:c?") [withParsingMode RFC8141Only] = .ok ⟨none, true, lit "urn:ab:c?"⟩ := by
  rw [parse_mode]; decide

/-! ## C26: kinds -/

theorem C26_kind (mode : ParsingMode) (hm : KnownMode mode) (s : Bytes) (u : URN) (h : ParsesTo mode s u) :
    (mode = RFC2141Only → u.rfc = .RFC2141) ∧ (mode = RFC7643Only → u.rfc = .RFC7643) ∧ (mode = RFC8141Only → u.rfc = .RFC8141) ∧
    (u.isSCIM = true ↔ mode = RFC7643Only) ∧ (u.getSCIM ≠ none ↔ u.isSCIM = true) := by
  rcases hm with rfl | rfl | rfl
  · revert h; intro hw; obtain ⟨pre, nid, nss, h, _, rfl⟩ := parsesTo_2141.mp hw
    refine ⟨?_, ?_, ?_, ?_, ?_⟩ <;> simp [urn2141, URN.rfc, URN.isSCIM, URN.getSCIM] <;> decide
  · revert h; intro hw; obtain ⟨pre, kw, ty, name, tail, other, h, rfl⟩ := parsesTo_7643.mp hw
    refine ⟨?_, ?_, ?_, ?_, ?_⟩ <;> simp [urnScim, URN.rfc, URN.isSCIM, URN.getSCIM] <;> decide
  · revert h; intro hw; obtain ⟨pre, nid, nss, r, q, f, h, rfl⟩ := parsesTo_8141.mp hw
    refine ⟨?_, ?_, ?_, ?_, ?_⟩ <;> simp [urn8141, URN.rfc, URN.isSCIM, URN.getSCIM] <;> decide

example : Cases.u2141.rfc = .RFC2141 ∧ Cases.u7643.rfc = .RFC7643 ∧ Cases.u8141.rfc = .RFC8141 ∧ Cases.u7643.isSCIM = true :=
  ⟨(C26_kind _ (Or.inl rfl) _ _ Cases.p2141).1 rfl, (C26_kind _ (Or.inr (Or.inl rfl)) _ _ Cases.p7643).2.1 rfl,
   (C26_kind _ (Or.inr (Or.inr rfl)) _ _ Cases.p8141).2.2.1 rfl, (C26_kind _ (Or.inr (Or.inl rfl)) _ _ Cases.p7643).2.2.2.1.mpr rfl⟩

/-! ## C34: the bytes of accepted inputs -/

theorem printable8 : ∀ c : UInt8, okByte8 c = true → 33 ≤ c ∧ c ≤ 126 ∧ c ∉ lit "\"<>\\^`{|}[]" := forall_byte (by decide +kernel)
theorem printable2 : ∀ c : UInt8, okByte2 c = true → 33 ≤ c ∧ c ≤ 126 ∧ c ∉ lit "\"<>\\^`{|}[]" ∧ c ∉ lit "/?#&~" := forall_byte (by decide +kernel)

theorem C34_printable (mode : ParsingMode) (hm : KnownMode mode) (s : Bytes) (h : Accepts mode s) :
    ∀ c ∈ s, 33 ≤ c ∧ c ≤ 126 ∧ c ∉ lit "\"<>\\^`{|}[]" ∧ (mode ≠ RFC8141Only → c ∉ lit "/?#&~") := by
  obtain ⟨u, h⟩ := h
  intro c hc
  rcases hm with rfl | rfl | rfl
  · revert h; intro hw; obtain ⟨pre, nid, nss, h, _, rfl⟩ := parsesTo_2141.mp hw
    obtain ⟨h1, h2, h3, h4⟩ := printable2 c (h.bytes c hc)
    exact ⟨h1, h2, h3, fun _ => h4⟩
  · revert h; intro hw; obtain ⟨pre, kw, ty, name, tail, other, h, rfl⟩ := parsesTo_7643.mp hw
    obtain ⟨h1, h2, h3, h4⟩ := printable2 c (h.bytes c hc)
    exact ⟨h1, h2, h3, fun _ => h4⟩
  · revert h; intro hw; obtain ⟨pre, nid, nss, r, q, f, h, rfl⟩ := parsesTo_8141.mp hw
    obtain ⟨h1, h2, h3⟩ := printable8 c (h.bytes c hc)
    exact ⟨h1, h2, h3, fun h => absurd rfl h⟩

example : ∀ c ∈ Cases.s8141, 33 ≤ c ∧ c ≤ 126 :=
  fun c hc => let h := C34_printable _ (Or.inr (Or.inr rfl)) _ ⟨_, Cases.p8141⟩ c hc; ⟨h.1, h.2.1⟩

/-- Whatever the machine and its history, not only in the three modes. -/
theorem C34_printable_any (m : Machine) (hm : Reachable m) (s : Bytes) (r : Parsed) (h : m.parse s = .ok r) (hu : r.urn ≠ none) :
    ∀ c ∈ s, 33 ≤ c ∧ c ≤ 126 ∧ c ∉ lit "\"<>\\^`{|}[]" := by
  obtain ⟨m', h1, _⟩ := parse_ref m s hm.start
  rw [h1] at h; simp at h; subst h
  intro c hc
  rcases hm.start with h0 | h0 | h0 | h0 <;> simp only [refFrom, h0] at hu
  · simp at hu
  · rcases ref2141_or (flagsOf m.parsingMode) s with ⟨u, e⟩ | ⟨u, e⟩
    · obtain ⟨pre, nid, nss, h, _⟩ := ref2141_iff.mp e
      exact printable8 c (okByte8_of2 c (h.bytes c hc))
    · simp [e] at hu
  · rcases refScim_or (flagsOf m.parsingMode) s with ⟨u, e⟩ | ⟨u, e⟩
    · obtain ⟨pre, kw, ty, name, tail, other, h, _⟩ := refScim_iff.mp e
      exact printable8 c (okByte8_of2 c (h.bytes c hc))
    · simp [e] at hu
  · rcases ref8141_or (flagsOf m.parsingMode) s with ⟨u, e⟩ | ⟨u, e⟩ | e
    · obtain ⟨pre, nid, nss, r, q, f, h, _⟩ := ref8141_iff.mp e
      exact printable8 c (h.bytes c hc)
    · simp [e] at hu
    · simp [e] at hu

example : ∀ c ∈ Cases.s8141, 33 ≤ c ∧ c ≤ 126 := by
  obtain ⟨r, h, hu, _⟩ := Cases.parses RFC8141Only Cases.s8141
  have e : r.urn = some Cases.u8141 := hu.trans (by decide)
  exact fun c hc => let k := C34_printable_any _ (Cases.reach _) _ r h (by simp [e]) c hc; ⟨k.1, k.2.1⟩

/-! ## C35: lengths -/

theorem C35_lengths (s : Bytes) (u : URN) :
    (ParsesTo RFC2141Only s u → 1 ≤ u.ID.length ∧ u.ID.length ≤ 32 ∧ u.SS ≠ [] ∧ 7 ≤ s.length) ∧
    (ParsesTo RFC8141Only s u → 2 ≤ u.ID.length ∧ u.ID.length ≤ 32 ∧ u.SS ≠ [] ∧ 8 ≤ s.length) := by
  constructor
  · intro h
    revert h; intro hw; obtain ⟨pre, nid, nss, h, _, rfl⟩ := parsesTo_2141.mp hw
    have h1 : 1 ≤ nid.length := by
      have := h.hnid.nonempty
      cases nid with
      | nil => exact absurd rfl this
      | cons _ _ => simp
    have h2 : 1 ≤ nss.length := by
      have := h.hnss.1
      cases nss with
      | nil => exact absurd rfl this
      | cons _ _ => simp
    refine ⟨h1, h.hnid.short, h.hnss.1, ?_⟩
    rw [h.eq]; simp [h.hpre.length]; omega
  · intro h
    revert h; intro hw; obtain ⟨pre, nid, nss, r, q, f, h, rfl⟩ := parsesTo_8141.mp hw
    have h1 := h.hnid.two
    have h2 : 1 ≤ nss.length := by
      have := PctSeq1.ne h.hnss
      cases nss with
      | nil => exact absurd rfl this
      | cons _ _ => simp
    refine ⟨h1, h.hnid.short, PctSeq1.ne h.hnss, ?_⟩
    rw [h.eq]; simp [h.hpre.length]; omega

/-- The bounds are attained. -/
theorem C35_attained : Accepts RFC2141Only (lit "urn:a:b") ∧ Accepts RFC8141Only (lit "urn:ab:c") ∧
    Accepts RFC2141Only (lit "urn:" ++ List.replicate 32 97 ++ lit ":c") ∧
    Accepts RFC8141Only (lit "urn:" ++ List.replicate 32 97 ++ lit ":c") :=
  ⟨⟨urn2141 (lit "urn") (lit "a") (lit "b"), parsesTo_of (by decide)⟩,
   ⟨urn8141 (lit "urn") (lit "ab") (lit "c") none none none, parsesTo_of (by decide)⟩,
   ⟨urn2141 (lit "urn") (List.replicate 32 97) (lit "c"), parsesTo_of (by decide)⟩,
   ⟨urn8141 (lit "urn") (List.replicate 32 97) (lit "c") none none none, parsesTo_of (by decide)⟩⟩

end Urn
