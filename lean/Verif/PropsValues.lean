import Verif.PropsHeap
import Verif.PropsHist
/-!
# C60: the URNs that a program can have

Whatever a program does (`Heap.Runs`), each of its URNs is one that `Parse` returned, one that `Normalize` returned, or the
zero value; with other values assigned to the exported fields.
-/
set_option autoImplicit false
namespace Urn
open Heap

/-! ## Options -/

/-- Either the machine's mode is known, and the entry point is that of the mode; or an unknown mode was given. -/
def Cfg (m : Machine) : Prop := Start m.startParsingAt ∧ (KnownMode m.parsingMode → m.startParsingAt = startOf m.parsingMode)

theorem withParsingMode_mode (m : Machine) (x : ParsingMode) : (m.withParsingMode x).parsingMode = x := by
  simp only [Machine.withParsingMode]; (repeat' split) <;> rfl

theorem cfg_withParsingMode {m : Machine} (h : Cfg m) (x : ParsingMode) : Cfg (m.withParsingMode x) := by
  refine ⟨start_withParsingMode h.1 x, ?_⟩
  rw [withParsingMode_mode]
  rintro (rfl | rfl | rfl) <;> rfl

theorem cfg_execAll {m m' : Machine} {ops : List Op} {outs : List Out} (h : m.execAll ops = .ok (m', outs)) (hm : Cfg m) : Cfg m' := by
  induction ops generalizing m outs with
  | nil => injection h with h; injection h with h _; subst h; exact hm
  | cons op ops ih =>
    obtain ⟨⟨m1, o1⟩, h1, h⟩ := bind_ok h
    obtain ⟨⟨m2, o2⟩, h2, h⟩ := bind_ok h
    injection h with h; injection h with h _; subst h
    refine ih h2 ?_
    cases op with
    | parse s =>
      obtain ⟨m3, h3, _, _, h4, h5, _⟩ := parse_ref m s hm.1
      simp only [Machine.exec, h3, Run.ok_bind, Run.pure_eq] at h1
      injection h1 with h1; injection h1 with h1 _; subst h1
      exact ⟨by rw [h4]; exact hm.1, by rw [h4, h5]; exact hm.2⟩
    | withParsingMode x => injection h1 with h1; injection h1 with h1 _; subst h1; exact cfg_withParsingMode hm x
    | error => injection h1 with h1; injection h1 with h1 _; subst h1; exact hm

theorem cfg_new {opts : List Opt} {m : Machine} (h : newMachine opts = .ok m) : Cfg m := by
  obtain ⟨⟨m1, o1⟩, h1, h⟩ := bind_ok h
  have h2 : Cfg m1 := cfg_execAll h1 ⟨Or.inl rfl, fun hk => absurd hk (by unfold KnownMode; decide)⟩
  injection h with h; subst h
  split
  · exact h2
  · exact cfg_withParsingMode h2 _

/-- C60 (options): whatever the options are and do, a URN that `Parse` returns is the one that it returns in one of the
three modes. -/
theorem C60_options {s : Bytes} {opts : List Opt} {r : ParseResult} {u : URN} (h : parse s opts = .ok r) (hu : r.urn = some u) :
    ∃ mode, KnownMode mode ∧ ParsesTo mode s u := by
  obtain ⟨m, hm, h⟩ := bind_ok h
  obtain ⟨hc1, hc2⟩ := cfg_new hm
  obtain ⟨m', hp, _⟩ := parse_ref m s hc1
  rw [hp] at h
  simp only [Run.ok_bind] at h
  have key : refFrom m.startParsingAt m.parsingMode s = (some u, none) := by
    cases he : (refFrom m.startParsingAt m.parsingMode s).2 with
    | some e => rw [he] at h; injection h with h; subst h; cases hu
    | none => rw [he] at h; injection h with h; subst h; exact Prod.ext hu he
  rcases hc1 with h0 | h0 | h0 | h0
  · rw [h0] at key; cases key
  · rw [h0] at key
    have hne : m.parsingMode ≠ RFC8141Only := by
      intro e
      have := hc2 (Or.inr (Or.inr e))
      rw [h0, e] at this; exact absurd this (by decide)
    obtain ⟨pre, nid, nss, h1, h2, h3⟩ := ref2141_iff.mp (show ref2141 (flagsOf m.parsingMode) s = (some u, none) from key)
    have hchk : (flagsOf m.parsingMode).chk = true := by simp [flagsOf, hne]
    exact ⟨_, Or.inl rfl, parsesTo_2141.mpr ⟨pre, nid, nss, h1, by simpa [hchk] using h2, h3⟩⟩
  · rw [h0] at key
    exact ⟨_, Or.inr (Or.inl rfl), parsesTo_7643.mpr (refScim_iff.mp (show refScim (flagsOf m.parsingMode) s = (some u, none) from key))⟩
  · rw [h0] at key
    obtain ⟨pre, nid, nss, r, q, f, h1, _, h3⟩ := ref8141_iff.mp (show ref8141 (flagsOf m.parsingMode) s = (some u, none) from key)
    exact ⟨_, Or.inr (Or.inr rfl), parsesTo_8141.mpr ⟨pre, nid, nss, r, q, f, h1, h3⟩⟩

example : ∃ mode, KnownMode mode ∧ ParsesTo mode Cases.s7643 Cases.u7643 := by
  obtain ⟨r, h, hu⟩ := Cases.p7643
  exact C60_options h hu

/-! ## Values -/

/-- `x` was made from a URN that `Parse` returned, by assigning to the exported fields and by writes to its SCIM struct. -/
def FromParse (x : URN) : Prop :=
  ∃ mode s u, KnownMode mode ∧ ParsesTo mode s u ∧ (x.scim.isSome ↔ u.scim.isSome) ∧
    x = { u with ID := x.ID, SS := x.SS, scim := x.scim }

/-- `x` was made from the zero value, or from one that `Normalize` returned. -/
def FromFields (x : URN) : Prop := ∃ pre, (pre = [] ∨ pre = lit "urn") ∧ x = { «prefix» := pre, ID := x.ID, SS := x.SS }

/-- The same for an object: it has a SCIM struct or not. -/
def Origin (x : Obj) : Prop :=
  (∃ mode s u, KnownMode mode ∧ ParsesTo mode s u ∧ (x.scim.isSome ↔ u.scim.isSome) ∧
    x.fields = { u with ID := x.fields.ID, SS := x.fields.SS, scim := none }) ∨
  (x.scim = none ∧ FromFields x.fields)

def AllOrigin (h : Mem) : Prop := ∀ (a : Nat) (x : Obj), h.urns[a]? = some x → Origin x

theorem origin_made {h : Mem} {s : Bytes} {opts : List Opt} {r : ParseResult} {u : URN} (hp : Urn.parse s opts = .ok r) (hu : r.urn = some u) :
    Origin (h.made u).2 := by
  obtain ⟨mode, hk, hp⟩ := C60_options hp hu
  refine Or.inl ⟨mode, s, u, hk, hp, ?_, ?_⟩
  · unfold Mem.made; split <;> simp [*]
  · unfold Mem.made
    split
    · next e => simp only [← e]
    · rfl

theorem origin_new {h : Mem} (ho : AllOrigin h) {x : Obj} (hx : Origin x) : AllOrigin (h.new x).1 := by
  intro a y hy
  simp only [Mem.new] at hy
  rw [List.getElem?_append] at hy
  split at hy
  · exact ho a y hy
  · by_cases h0 : a - h.urns.length = 0
    · rw [h0] at hy; simp at hy; exact hy ▸ hx
    · have : [x][a - h.urns.length]? = none := by rw [List.getElem?_eq_none_iff]; simp; omega
      rw [this] at hy; cases hy

theorem origin_setObj {h h1 : Mem} {p : Ptr} {x : Obj} (ho : AllOrigin h) (hx : Origin x) (e : h.setObj p x = .ok h1) : AllOrigin h1 := by
  obtain ⟨a, ha, hl, rfl⟩ := setObj_ok e
  intro b y hy
  by_cases hab : a = b
  · subst hab
    simp only [List.getElem?_set, hl, if_true] at hy
    injection hy with hy; exact hy ▸ hx
  · simp only [List.getElem?_set, hab, if_false] at hy
    exact ho b y hy

theorem origin_id {x : Obj} (hx : Origin x) (v : Bytes) : Origin { x with fields := { x.fields with ID := v } } := by
  rcases hx with ⟨mode, s, u, h1, h2, h3, h4⟩ | ⟨h1, pre, h2, h3⟩
  · exact Or.inl ⟨mode, s, u, h1, h2, h3, by rw [h4]⟩
  · exact Or.inr ⟨h1, pre, h2, by rw [h3]⟩

theorem origin_ss {x : Obj} (hx : Origin x) (v : Bytes) : Origin { x with fields := { x.fields with SS := v } } := by
  rcases hx with ⟨mode, s, u, h1, h2, h3, h4⟩ | ⟨h1, pre, h2, h3⟩
  · exact Or.inl ⟨mode, s, u, h1, h2, h3, by rw [h4]⟩
  · exact Or.inr ⟨h1, pre, h2, by rw [h3]⟩

theorem act_origin {uni : Bytes → Bytes} {j : JsonCodec} {h h1 : Mem} {b : Heap.Act} {g : Got} (ho : AllOrigin h)
    (e : h.act uni j b = .ok (h1, g)) : AllOrigin h1 := by
  have hmade : ∀ u : URN, AllOrigin (h.made u).1 := by
    intro u a x hx
    rw [made_urns] at hx
    exact ho a x hx
  cases b with
  | parse s options =>
    obtain ⟨r, hr, e⟩ := bind_ok e
    cases hu : r.urn with
    | none =>
      rw [hu] at e
      injection e with e; injection e with e1 e2; subst e1; exact ho
    | some u =>
      rw [hu] at e
      injection e with e; injection e with e1 e2
      replace e1 : ((h.made u).1.new (h.made u).2).1 = h1 := e1
      subst e1
      exact origin_new (hmade u) (origin_made hr hu)
  | newURN =>
    injection e with e; injection e with e1 e2
    replace e1 : (h.new {}).1 = h1 := e1
    subst e1
    exact origin_new ho (Or.inr ⟨rfl, [], Or.inl rfl, rfl⟩)
  | normalize p =>
    obtain ⟨x, _, e⟩ := bind_ok e
    injection e with e; injection e with e1 e2
    replace e1 : (h.new ⟨(h.value x).normalize uni, none⟩).1 = h1 := e1
    subst e1
    exact origin_new ho (Or.inr ⟨rfl, lit "urn", Or.inr rfl, rfl⟩)
  | unmarshal8141 p text =>
    simp only [Mem.act] at e
    cases hj : j.unmarshal text with
    | none =>
      rw [hj] at e
      injection e with e; injection e with e1 e2; subst e1; exact ho
    | some str =>
      rw [hj] at e
      obtain ⟨r, hr, e⟩ := bind_ok e
      split at e
      · injection e with e; injection e with e1 e2; subst e1; exact ho
      · cases hu : r.urn with
        | none =>
          rw [hu] at e
          injection e with e; injection e with e1 e2; subst e1; exact ho
        | some u =>
          rw [hu] at e
          injection e with e; injection e with e1 e2
          replace e1 : ((h.made u).1.new (h.made u).2).1 = h1 := e1
          subst e1
          exact origin_new (hmade u) (origin_made hr hu)
  | newSCIM =>
    injection e with e; injection e with e1 e2; subst e1
    exact ho
  | equal p q =>
    cases q with
    | none => injection e with e; injection e with e1 e2; subst e1; exact ho
    | some b =>
      obtain ⟨x, _, e⟩ := bind_ok e
      obtain ⟨y, _, e⟩ := bind_ok e
      injection e with e; injection e with e1 e2; subst e1; exact ho
  | unmarshalJSON p text =>
    simp only [Mem.act] at e
    cases hj : j.unmarshal text with
    | none =>
      rw [hj] at e
      injection e with e; injection e with e1 e2; subst e1; exact ho
    | some str =>
      rw [hj] at e
      obtain ⟨r, hr, e⟩ := bind_ok e
      split at e
      · injection e with e; injection e with e1 e2; subst e1; exact ho
      · cases hu : r.urn with
        | none => rw [hu] at e; cases e
        | some v =>
          rw [hu] at e
          obtain ⟨h3, h4, e⟩ := bind_ok e
          injection e with e; injection e with e1 e2; subst e1
          exact origin_setObj (hmade v) (origin_made hr hu) h4
  | scimUnmarshalJSON p text =>
    obtain ⟨⟨x, er⟩, _, e⟩ := bind_ok e
    cases er with
    | some er => injection e with e; injection e with e1 e2; subst e1; exact ho
    | none =>
      obtain ⟨h3, h4, e⟩ := bind_ok e
      injection e with e; injection e with e1 e2; subst e1
      obtain ⟨_, _, _, rfl⟩ := setScim_ok h4
      exact ho
  | setType p v | setName p v | setOther p v | copySCIM p q =>
    obtain ⟨x, hx, e⟩ := bind_ok e
    obtain ⟨h3, h4, e⟩ := bind_ok e
    injection e with e; injection e with e1 e2; subst e1
    obtain ⟨_, _, _, rfl⟩ := setScim_ok h4
    exact ho
  | setID p v =>
    obtain ⟨x, hx, e⟩ := bind_ok e
    obtain ⟨h3, h4, e⟩ := bind_ok e
    injection e with e; injection e with e1 e2; subst e1
    obtain ⟨a, _, hx⟩ := obj_ok hx
    exact origin_setObj ho (origin_id (ho a x hx) v) h4
  | setSS p v =>
    obtain ⟨x, hx, e⟩ := bind_ok e
    obtain ⟨h3, h4, e⟩ := bind_ok e
    injection e with e; injection e with e1 e2; subst e1
    obtain ⟨a, _, hx⟩ := obj_ok hx
    exact origin_setObj ho (origin_ss (ho a x hx) v) h4
  | copy p q =>
    obtain ⟨x, hx, e⟩ := bind_ok e
    obtain ⟨h3, h4, e⟩ := bind_ok e
    injection e with e; injection e with e1 e2; subst e1
    obtain ⟨a, _, hx⟩ := obj_ok hx
    exact origin_setObj ho (ho a x hx) h4
  | scim p | string p | isSCIM p | rfc p | rComponent p | qComponent p | fComponent p | marshalJSON p | id p | ss p
  | scimString p | scimMarshalJSON p | scimFields p | marshal8141 p =>
    obtain ⟨x, _, e⟩ := bind_ok e
    injection e with e; injection e with e1 e2; subst e1; exact ho

theorem origin_reachable {uni : Bytes → Bytes} {j : JsonCodec} {h : Mem} (hr : ReachableMem uni j h) : AllOrigin h := by
  obtain ⟨U, S, hr⟩ := hr
  have : ∀ {h0 : Mem} {U0 S0 : List Nat}, Runs uni j h0 U0 S0 h U S → AllOrigin h0 → AllOrigin h := by
    intro h0 U0 S0 hr'
    induction hr' with
    | nil h U S => exact fun h => h
    | cons _ _ e _ ih => exact fun h => ih hr (act_origin h e)
  exact this hr (fun a x hx => by simp at hx)

/-- C60: each URN of a program comes from `Parse`, from `Normalize`, or from the zero value; the exported fields and the
contents of the SCIM struct are the client's, everything else is as it was made. -/
theorem C60_origin {uni : Bytes → Bytes} {j : JsonCodec} {h : Mem} (hr : ReachableMem uni j h) (a : Nat) (x : Obj)
    (hx : h.urns[a]? = some x) : FromParse (h.value x) ∨ FromFields (h.value x) := by
  have hs : (h.value x).scim.isSome ↔ x.scim.isSome := by
    simp only [Mem.value]
    cases hxs : x.scim with
    | none => simp
    | some s => simp [sound_of_reachable hr a x s hx hxs]
  rcases origin_reachable hr a x hx with ⟨mode, s, u, h1, h2, h3, h4⟩ | ⟨h1, pre, h2, h3⟩
  · refine Or.inl ⟨mode, s, u, h1, h2, hs.trans h3, ?_⟩
    simp only [Mem.value]
    rw [h4]
  · refine Or.inr ⟨pre, h2, ?_⟩
    simp only [Mem.value, h1, Option.bind_none]
    rw [h3]

example := C60_origin (Cases.reach1 id ⟨id, some⟩) 0 _ rfl

/-- C60 (what the methods say of any URN of a program): `SCIM()` is nil exactly when `IsSCIM()` is false, which is when
`RFC()` is not RFC 7643; only URNs of kind RFC 8141 have components. -/
theorem C60_kinds {uni : Bytes → Bytes} {j : JsonCodec} {h : Mem} (hr : ReachableMem uni j h) (a : Nat) (x : Obj)
    (hx : h.urns[a]? = some x) :
    ((h.value x).getSCIM = none ↔ (h.value x).isSCIM = false) ∧ ((h.value x).isSCIM = true ↔ (h.value x).rfc = .RFC7643) ∧
    ((h.value x).rfc ≠ .RFC8141 → (h.value x).getR = [] ∧ (h.value x).getQ = [] ∧ (h.value x).getF = []) := by
  rcases C60_origin hr a x hx with ⟨mode, s, u, h1, h2, h3, h4⟩ | ⟨pre, h2, h3⟩
  · generalize h.value x = v at *
    rcases h1 with rfl | rfl | rfl
    · obtain ⟨pre, nid, nss, _, _, rfl⟩ := parsesTo_2141.mp h2
      rw [h4]
      simp [urn2141, URN.getSCIM, URN.isSCIM, URN.rfc, URN.getR, URN.getQ, URN.getF]
    · obtain ⟨pre, kw, ty, name, tail, other, _, rfl⟩ := parsesTo_7643.mp h2
      have : v.scim.isSome := h3.mpr rfl
      obtain ⟨y, hy⟩ := Option.isSome_iff_exists.mp this
      rw [h4, hy]
      simp [urnScim, URN.getSCIM, URN.isSCIM, URN.rfc, URN.getR, URN.getQ, URN.getF]
    · obtain ⟨pre, nid, nss, r, q, f, _, rfl⟩ := parsesTo_8141.mp h2
      rw [h4]
      simp [urn8141, URN.getSCIM, URN.isSCIM, URN.rfc, URN.getR, URN.getQ, URN.getF]
  · rw [h3]
    simp [URN.getSCIM, URN.isSCIM, URN.rfc, URN.getR, URN.getQ, URN.getF]

example : (Cases.h1.value (Cases.h1.urns.headD {})).isSCIM = true :=
  (C60_kinds (Cases.reach1 id ⟨id, some⟩) 0 (Cases.h1.urns.headD {}) rfl).2.1.mpr (by decide)

/-- A component with its delimiter; nothing if it is empty. -/
def piece (delim w : Bytes) : Bytes := if w = [] then [] else delim ++ w

/-- C60 (text): the text of any URN of a program is empty exactly if one of the exported fields is; if not, it begins with
"urn" (in some case), followed by the exported fields and what `RComponent()`, `QComponent()` and `FComponent()` return. -/
theorem C60_text {uni : Bytes → Bytes} {j : JsonCodec} {h : Mem} (hr : ReachableMem uni j h) (a : Nat) (x : Obj)
    (hx : h.urns[a]? = some x) :
    ∃ pre, Spec.IsUrn pre ∧ (h.value x).string =
      if (h.value x).ID = [] ∨ (h.value x).SS = [] then []
      else pre ++ lit ":" ++ (h.value x).ID ++ lit ":" ++ (h.value x).SS ++
        piece (lit "?+") (h.value x).getR ++ piece (lit "?=") (h.value x).getQ ++ piece (lit "#") (h.value x).getF := by
  have hpre : (h.value x).prefix = [] ∨ Spec.IsUrn (h.value x).prefix := by
    rcases C60_origin hr a x hx with ⟨mode, s, u, h1, h2, h3, h4⟩ | ⟨pre, h2, h3⟩
    · right
      rw [h4]
      show Spec.IsUrn u.prefix
      rcases h1 with rfl | rfl | rfl
      · obtain ⟨pre, nid, nss, h, _, rfl⟩ := parsesTo_2141.mp h2
        exact h.hpre
      · obtain ⟨pre, kw, ty, name, tail, other, h, rfl⟩ := parsesTo_7643.mp h2
        exact h.hpre
      · obtain ⟨pre, nid, nss, r, q, f, h, rfl⟩ := parsesTo_8141.mp h2
        exact pre8141_urn h.hpre
    · rw [h3]
      rcases h2 with rfl | rfl
      · exact Or.inl rfl
      · right; exact (by unfold Spec.IsUrn; decide : Spec.IsUrn (lit "urn"))
  generalize h.value x = v at *
  refine ⟨if v.prefix = [] then lit "urn" else v.prefix, ?_, ?_⟩
  · split
    · unfold Spec.IsUrn; decide
    · next hne => exact hpre.resolve_left hne
  · by_cases h1 : v.ID = []
    · simp [URN.string, h1]
    · by_cases h2 : v.SS = []
      · simp [URN.string, h2]
      · simp only [URN.string, h1, h2, ne_eq, not_false_eq_true, and_self, if_true, or_self, if_false, piece, URN.getR, URN.getQ, URN.getF]
        by_cases h3 : v.prefix = [] <;> by_cases h4 : v.rComponent = [] <;> by_cases h5 : v.qComponent = [] <;>
          by_cases h6 : v.fComponent = [] <;> simp [h3, h4, h5, h6]

example := C60_text (Cases.reach1 id ⟨id, some⟩) 0 _ rfl

/-! Beside the theorems: a program that parses, changes a field, decodes something else into a copy. -/

example : ∃ h U S x, Runs id ⟨id, some⟩ {} [] [] h U S ∧ h.urns[1]? = some x ∧ (h.value x).rfc = .RFC8141 ∧
    (h.value x).string = lit "urn:xyz:c?+r#f" := by
  have p1 : Urn.parse (lit "urn:ab:c?+r#f") [withParsingMode RFC8141Only] = _ := parse_mode _ _
  exact ⟨_, _, _, _, .cons (a := .parse (lit "urn:ab:c?+r#f") [withParsingMode RFC8141Only]) (by simp [Heap.Act.urns]) (by simp [Heap.Act.scims])
      (by simp only [Mem.act, p1]; rfl)
    (.cons (a := .newURN) (g := .urn (some 1) true) (by simp [Heap.Act.urns]) (by simp [Heap.Act.scims]) rfl
      (.cons (a := .copy (some 1) (some 0)) (g := .unit) (by simp [Heap.Act.urns, Got.urns]; decide) (by simp [Heap.Act.scims]) rfl
        (.cons (a := .setID (some 1) (lit "xyz")) (g := .unit) (by simp [Heap.Act.urns, Got.urns]) (by simp [Heap.Act.scims]) rfl (.nil _ _ _)))),
    rfl, by decide, by decide⟩

example : ∃ r u, parse (lit "urn:a:b") [withParsingMode RFC2141Only, withParsingMode DefaultMode] = .ok r ∧ r.urn = some u := by
  obtain ⟨r, hr⟩ := C01_parse_returns (lit "urn:a:b") [withParsingMode RFC2141Only, withParsingMode DefaultMode]
  obtain ⟨r', hr'⟩ := C01_parse_returns (lit "urn:a:b") [withParsingMode RFC2141Only]
  refine ⟨r, urn2141 (lit "urn") (lit "a") (lit "b"), hr, ?_⟩
  rw [C45_same _ _ (Or.inl rfl) (by unfold KnownMode; decide) _ r r' hr hr']
  obtain ⟨r2, h2, h3⟩ := parsesTo_of (mode := RFC2141Only) (s := lit "urn:a:b") (u := urn2141 (lit "urn") (lit "a") (lit "b")) (by decide)
  rw [hr'] at h2; injection h2 with h2; rw [h2]; exact h3

end Urn
