import Verif.HeapAux
/-!
# C58: nil; C59: what is shared

Clients hold pointers.  `Heap.Act` is what they can do with them; `Heap.Runs` are the things that a client can do with the
pointers that it has, and what it is given by that.
-/
set_option autoImplicit false
namespace Urn
open Heap

/-- A memory that a program can have. -/
def ReachableMem (uni : Bytes → Bytes) (j : JsonCodec) (h : Mem) : Prop := ∃ U S, Runs uni j {} [] [] h U S

theorem sound_of_reachable {uni : Bytes → Bytes} {j : JsonCodec} {h : Mem} (hr : ReachableMem uni j h) : Sound h := by
  obtain ⟨U, S, hr⟩ := hr
  exact (runs_frame (U := fun _ => True) (S := fun _ => True) hr
    ⟨fun _ _ => trivial, fun _ _ => trivial, fun _ _ _ _ _ _ => trivial, fun a x s hx _ => by simp at hx⟩
    (fun _ _ => trivial) (fun _ _ => trivial)).part.sound

/-- For the examples: the memory of a program that has parsed a SCIM URN; it has a pointer to the URN. -/
def Cases.act1 : Heap.Act := .parse (lit "urn:ietf:params:scim:api:a") [withParsingMode RFC7643Only]
def Cases.h1 : Mem :=
  ((({} : Mem).made ((refMode RFC7643Only (lit "urn:ietf:params:scim:api:a")).1.getD {})).1.new
    (({} : Mem).made ((refMode RFC7643Only (lit "urn:ietf:params:scim:api:a")).1.getD {})).2).1

theorem Cases.does1 (uni : Bytes → Bytes) (j : JsonCodec) : ({} : Mem).act uni j Cases.act1 = .ok (Cases.h1, .urn (some 0) true) := by
  have p1 : Urn.parse (lit "urn:ietf:params:scim:api:a") [withParsingMode RFC7643Only] = _ := parse_mode _ _
  simp only [Cases.act1, Mem.act, p1]; rfl

theorem Cases.runs1 (uni : Bytes → Bytes) (j : JsonCodec) : Runs uni j {} [] [] Cases.h1 [0] [] :=
  .cons (a := Cases.act1) (by simp [Cases.act1, Heap.Act.urns]) (by simp [Cases.act1, Heap.Act.scims]) (Cases.does1 uni j) (.nil _ _ _)

theorem Cases.reach1 (uni : Bytes → Bytes) (j : JsonCodec) : ReachableMem uni j Cases.h1 := ⟨_, _, Cases.runs1 uni j⟩

/-- It asks for the SCIM struct, and then for another URN. -/
theorem Cases.does2 (uni : Bytes → Bytes) (j : JsonCodec) : Cases.h1.act uni j (.scim (some 0)) = .ok (Cases.h1, .scim (some 0)) := rfl

def Cases.h3 : Mem := { Cases.h1 with urns := Cases.h1.urns ++ [⟨(Cases.h1.value (Cases.h1.urns.headD {})).normalize id, none⟩] }
theorem Cases.does3 (j : JsonCodec) : Cases.h1.act id j (.normalize (some 0)) = .ok (Cases.h3, .urn (some 1) true) := rfl

/-! ## C58 -/

/-- The pointers of an action that are not nil point to objects. -/
def Valid (h : Mem) (a : Heap.Act) : Prop := (∀ x ∈ a.urns, x < h.urns.length) ∧ ∀ x ∈ a.scims, x < h.scims.length

/-- The actions on a nil receiver or argument that panic (urn.go, scim.go, urn8141.go: those that follow the pointer).
`Equal` tests its argument first, so it panics only for a nil receiver and an argument that is not nil.  `UnmarshalJSON`
writes through its receiver last, when the text was good. -/
def NilPanics (j : JsonCodec) : Heap.Act → Prop
  | .normalize p | .string p | .isSCIM p | .scim p | .rfc p | .rComponent p | .qComponent p | .fComponent p
  | .marshalJSON p | .id p | .ss p | .setID p _ | .setSS p _ | .marshal8141 p => p = none
  | .scimString p | .scimMarshalJSON p | .scimFields p | .setType p _ | .setName p _ | .setOther p _ => p = none
  | .copy p q | .copySCIM p q => p = none ∨ q = none
  | .equal p q => p = none ∧ q ≠ none
  | .unmarshalJSON p text => p = none ∧ ∃ str, j.unmarshal text = some str ∧ Accepts RFC2141Only str
  | .scimUnmarshalJSON p text => p = none ∧ ∃ str, j.unmarshal text = some str ∧ Accepts RFC7643Only str
  | .parse _ _ | .newURN | .newSCIM | .unmarshal8141 _ _ => False

theorem obj_some {h : Mem} {a : Nat} (ha : a < h.urns.length) : ∃ x, h.obj (some a) = .ok x := by
  refine ⟨h.urns[a], ?_⟩
  simp only [Mem.obj, List.getElem?_eq_getElem ha]

theorem scim_some {h : Mem} {a : Nat} (ha : a < h.scims.length) : ∃ x, h.scim (some a) = .ok x := by
  refine ⟨h.scims[a], ?_⟩
  simp only [Mem.scim, List.getElem?_eq_getElem ha]

theorem setObj_some {h : Mem} {a : Nat} (ha : a < h.urns.length) (x : Obj) : ∃ h1, h.setObj (some a) x = .ok h1 :=
  ⟨{ h with urns := h.urns.set a x }, by simp only [Mem.setObj, ha, if_true]⟩

theorem setScim_some {h : Mem} {a : Nat} (ha : a < h.scims.length) (x : SCIM) : ∃ h1, h.setScim (some a) x = .ok h1 :=
  ⟨{ h with scims := h.scims.set a x }, by simp only [Mem.setScim, ha, if_true]⟩

theorem made_urns (h : Mem) (u : URN) : (h.made u).1.urns = h.urns := by
  unfold Mem.made; split <;> rfl

/-- C58: an action panics exactly when it is one of those with a nil pointer that `NilPanics` lists, and the panic is that of
a nil pointer; any other action returns. -/
theorem C58_nil (uni : Bytes → Bytes) (j : JsonCodec) (h : Mem) (a : Heap.Act) (hv : Valid h a) :
    (NilPanics j a → h.act uni j a = .panic .nilDeref) ∧ (¬ NilPanics j a → ∃ h1 g, h.act uni j a = .ok (h1, g)) := by
  obtain ⟨hU, hS⟩ := hv
  cases a with
  | parse s options =>
    refine ⟨fun h => h.elim, fun _ => ?_⟩
    obtain ⟨r, hr⟩ := C01_parse_returns s options
    simp only [Mem.act, hr, Run.ok_bind]
    cases r.urn with
    | none => exact ⟨_, _, rfl⟩
    | some u => exact ⟨_, _, rfl⟩
  | newURN => exact ⟨fun h => h.elim, fun _ => ⟨_, _, rfl⟩⟩
  | newSCIM => exact ⟨fun h => h.elim, fun _ => ⟨_, _, rfl⟩⟩
  | equal p q =>
    cases q with
    | none => exact ⟨fun h => absurd rfl h.2, fun _ => ⟨_, _, rfl⟩⟩
    | some b =>
      cases p with
      | none => exact ⟨fun _ => rfl, fun hn => absurd ⟨rfl, by simp⟩ hn⟩
      | some a =>
        refine ⟨fun h => (by cases h.1), fun _ => ?_⟩
        obtain ⟨x, hx⟩ := obj_some (hU a (by simp [Act.urns]))
        obtain ⟨y, hy⟩ := obj_some (hU b (by simp [Act.urns]))
        simp only [Mem.act, hx, hy, Run.ok_bind]
        exact ⟨_, _, rfl⟩
  | unmarshalJSON p text =>
    have hk : KnownMode RFC2141Only := Or.inl rfl
    simp only [Mem.act, NilPanics]
    cases hj : j.unmarshal text with
    | none => exact ⟨fun ⟨_, s, hs, _⟩ => (by cases hs), fun _ => ⟨_, _, rfl⟩⟩
    | some str =>
      obtain ⟨r, hr⟩ := C01_parse_returns str []
      have hr' : Urn.parse str [withParsingMode RFC2141Only] = .ok r := hr
      have hok := (C22_ok_iff RFC2141Only (Or.inl rfl) str).1 r hr'
      simp only [hr, Run.ok_bind]
      have hacc : Accepts RFC2141Only str ↔ r.urn ≠ none := by
        constructor
        · rintro ⟨u, r', h1, h2⟩
          rw [hr'] at h1; injection h1 with h1; subst h1; rw [h2]; simp
        · intro hu
          cases hu' : r.urn with
          | none => exact absurd hu' hu
          | some u => exact ⟨u, r, hr', hu'⟩
      cases hu : r.urn with
      | none =>
        have hf : r.ok = false := by
          cases ho : r.ok with
          | false => rfl
          | true => exact absurd hu (hok.mp ho)
        simp only [hf, if_true]
        refine ⟨fun ⟨_, s, hs, ha⟩ => ?_, fun _ => ⟨_, _, rfl⟩⟩
        injection hs with hs; subst hs
        exact absurd hu (hacc.mp ha)
      | some v =>
        have ht : r.ok = true := hok.mpr (by rw [hu]; simp)
        simp only [ht, Bool.true_eq_false, if_false]
        cases p with
        | none =>
          refine ⟨fun _ => rfl, fun hn => absurd ⟨rfl, str, rfl, hacc.mpr (by rw [hu]; simp)⟩ hn⟩
        | some a =>
          refine ⟨fun h => (by cases h.1), fun _ => ?_⟩
          obtain ⟨h1, he⟩ := setObj_some (h := (h.made v).1) (a := a) (by rw [made_urns]; exact hU a (by simp [Act.urns])) (h.made v).2
          simp only [he, Run.ok_bind]
          exact ⟨_, _, rfl⟩
  | scimUnmarshalJSON p text =>
    obtain ⟨x, e, h1, h2, h3, _⟩ := C28_scim j {} text
    simp only [Mem.act, NilPanics, h1, Run.ok_bind]
    cases e with
    | some e =>
      refine ⟨fun ⟨_, hh⟩ => absurd (h2.mpr hh) (by simp), fun _ => ⟨_, _, rfl⟩⟩
    | none =>
      cases p with
      | none => exact ⟨fun _ => rfl, fun hn => absurd ⟨rfl, h2.mp rfl⟩ hn⟩
      | some a =>
        refine ⟨fun h => (by cases h.1), fun _ => ?_⟩
        obtain ⟨h4, he⟩ := setScim_some (h := h) (hS a (by simp [Act.scims])) x
        simp only [he, Run.ok_bind]
        exact ⟨_, _, rfl⟩
  | unmarshal8141 p text =>
    refine ⟨fun h => h.elim, fun _ => ?_⟩
    simp only [Mem.act]
    cases j.unmarshal text with
    | none => exact ⟨_, _, rfl⟩
    | some str =>
      obtain ⟨r, hr⟩ := C01_parse_returns str [withParsingMode RFC8141Only]
      simp only [hr, Run.ok_bind]
      split
      · exact ⟨_, _, rfl⟩
      · cases r.urn with
        | none => exact ⟨_, _, rfl⟩
        | some u => exact ⟨_, _, rfl⟩
  | copy p q =>
    cases q with
    | none => exact ⟨fun _ => rfl, fun hn => absurd (Or.inr rfl) hn⟩
    | some b =>
      obtain ⟨y, hy⟩ := obj_some (hU b (by simp [Act.urns]))
      simp only [Mem.act, NilPanics, hy, Run.ok_bind]
      cases p with
      | none => exact ⟨fun _ => rfl, fun hn => absurd (Or.inl rfl) hn⟩
      | some a =>
        refine ⟨fun h => (by rcases h with h | h <;> cases h), fun _ => ?_⟩
        obtain ⟨h1, he⟩ := setObj_some (hU a (by simp [Act.urns])) y
        simp only [he, Run.ok_bind]
        exact ⟨_, _, rfl⟩
  | copySCIM p q =>
    cases q with
    | none => exact ⟨fun _ => rfl, fun hn => absurd (Or.inr rfl) hn⟩
    | some b =>
      obtain ⟨y, hy⟩ := scim_some (hS b (by simp [Act.scims]))
      simp only [Mem.act, NilPanics, hy, Run.ok_bind]
      cases p with
      | none => exact ⟨fun _ => rfl, fun hn => absurd (Or.inl rfl) hn⟩
      | some a =>
        refine ⟨fun h => (by rcases h with h | h <;> cases h), fun _ => ?_⟩
        obtain ⟨h1, he⟩ := setScim_some (hS a (by simp [Act.scims])) y
        simp only [he, Run.ok_bind]
        exact ⟨_, _, rfl⟩
  | setID p v | setSS p v =>
    cases p with
    | none => exact ⟨fun _ => rfl, fun hn => absurd rfl hn⟩
    | some a =>
      refine ⟨fun h => (by cases h), fun _ => ?_⟩
      obtain ⟨x, hx⟩ := obj_some (hU a (by simp [Act.urns]))
      simp only [Mem.act, hx, Run.ok_bind, Mem.setObj, hU a (by simp [Act.urns]), if_true]
      exact ⟨_, _, rfl⟩
  | setType p v | setName p v | setOther p v =>
    cases p with
    | none => exact ⟨fun _ => rfl, fun hn => absurd rfl hn⟩
    | some a =>
      refine ⟨fun h => (by cases h), fun _ => ?_⟩
      obtain ⟨x, hx⟩ := scim_some (hS a (by simp [Act.scims]))
      simp only [Mem.act, hx, Run.ok_bind, Mem.setScim, hS a (by simp [Act.scims]), if_true]
      exact ⟨_, _, rfl⟩
  | scimString p | scimMarshalJSON p | scimFields p =>
    cases p with
    | none => exact ⟨fun _ => rfl, fun hn => absurd rfl hn⟩
    | some a =>
      refine ⟨fun h => (by cases h), fun _ => ?_⟩
      obtain ⟨x, hx⟩ := scim_some (hS a (by simp [Act.scims]))
      simp only [Mem.act, hx, Run.ok_bind]
      exact ⟨_, _, rfl⟩
  | normalize p | string p | isSCIM p | scim p | rfc p | rComponent p | qComponent p | fComponent p
  | marshalJSON p | id p | ss p | marshal8141 p =>
    cases p with
    | none => exact ⟨fun _ => rfl, fun hn => absurd rfl hn⟩
    | some a =>
      refine ⟨fun h => (by cases h), fun _ => ?_⟩
      obtain ⟨x, hx⟩ := obj_some (hU a (by simp [Act.urns]))
      simp only [Mem.act, hx, Run.ok_bind]
      exact ⟨_, _, rfl⟩

/-- A string of a URN, a string of nil. -/
example (j : JsonCodec) : (∃ h1 g, Cases.h1.act id j (.string (some 0)) = .ok (h1, g)) ∧ Cases.h1.act id j (.string none) = .panic .nilDeref :=
  ⟨(C58_nil id j Cases.h1 (.string (some 0)) ⟨by decide, by decide⟩).2 (by simp [NilPanics]),
    (C58_nil id j Cases.h1 (.string none) ⟨by decide, by decide⟩).1 rfl⟩

theorem runs_valid {uni : Bytes → Bytes} {j : JsonCodec} {h h0 : Mem} {U S U0 S0 : List Nat} (hr : Runs uni j h0 U0 S0 h U S) :
    Sound h0 → (∀ x ∈ U0, x < h0.urns.length) → (∀ x ∈ S0, x < h0.scims.length) →
      (∀ x ∈ U, x < h.urns.length) ∧ ∀ x ∈ S, x < h.scims.length := by
  induction hr with
  | nil h U S => exact fun _ h1 h2 => ⟨h1, h2⟩
  | @cons g0 g1 g2 V T V' T' b g hV hT e _ ih =>
    intro hs h1 h2
    have hf := act_within (U := fun _ => True) (S := fun _ => True) (h := g0) (h1 := g1) (g := g)
      ⟨fun _ _ => trivial, fun _ _ => trivial, fun _ _ _ _ _ _ => trivial, hs⟩ (fun _ _ => trivial) (fun _ _ => trivial) e
    have hg := got_valid hs (fun x hx => h1 x (hV x hx)) (fun x hx => h2 x (hT x hx)) e
    refine ih hf.1.part.sound ?_ ?_
    · intro x hx
      rcases List.mem_append.mp hx with hx | hx
      · exact hg.1 x hx
      · exact Nat.lt_of_lt_of_le (h1 x hx) hf.1.lenU
    · intro x hx
      rcases List.mem_append.mp hx with hx | hx
      · exact hg.2 x hx
      · exact Nat.lt_of_lt_of_le (h2 x hx) hf.1.lenS

/-- C58 (pointers): the pointers that a client has are nil or point to objects, whatever it did before. -/
theorem C58_valid {uni : Bytes → Bytes} {j : JsonCodec} {h : Mem} {U S : List Nat} (hr : Runs uni j {} [] [] h U S) (a : Heap.Act)
    (hU : ∀ x ∈ a.urns, x ∈ U) (hS : ∀ x ∈ a.scims, x ∈ S) : Valid h a := by
  obtain ⟨h1, h2⟩ := runs_valid hr (fun a x s hx _ => by simp at hx) (by simp) (by simp)
  exact ⟨fun x hx => h1 x (hU x hx), fun x hx => h2 x (hS x hx)⟩

example (j : JsonCodec) : Valid Cases.h1 (.setID (some 0) (lit "x")) := C58_valid (Cases.runs1 id j) _ (by decide) (by decide)

/-- C58 (`Parse`): when the second result is true, the first one is nil exactly for an unknown mode and, in RFC 8141 mode, for
the texts of C22; then each method call but `Equal(nil)` and a failing `UnmarshalJSON` panics. -/
theorem C58_parse (uni : Bytes → Bytes) (j : JsonCodec) (h h1 : Mem) (mode : ParsingMode) (s : Bytes) (p : Ptr)
    (e : h.act uni j (.parse s [withParsingMode mode]) = .ok (h1, .urn p true)) :
    p = none ↔ ¬ KnownMode mode ∨ mode = RFC8141Only ∧ Spec.Silent8141 s := by
  obtain ⟨r, hr, e⟩ := bind_ok e
  have hpo : (p = none ↔ r.urn = none) ∧ r.ok = true := by
    cases hu : r.urn with
    | none =>
      rw [hu] at e
      injection e with e; injection e with e1 e2; injection e2 with e2 e3
      exact ⟨by simp [← e2], e3⟩
    | some u =>
      rw [hu] at e
      injection e with e; injection e with e1 e2; injection e2 with e2 e3
      exact ⟨by simp [← e2], e3⟩
  rw [hpo.1]
  by_cases hk : KnownMode mode
  · have hk' := hk
    simp only [hk', not_true, false_or]
    rcases hk with rfl | rfl | rfl
    · have := ((C22_ok_iff RFC2141Only (Or.inl rfl) s).1 r hr).mp hpo.2
      exact ⟨fun h => absurd h this, fun h => absurd h.1 (by decide)⟩
    · have := ((C22_ok_iff RFC7643Only (Or.inr rfl) s).1 r hr).mp hpo.2
      exact ⟨fun h => absurd h this, fun h => absurd h.1 (by decide)⟩
    · have := C22_8141 s r hr
      simp only [hpo.2, true_iff] at this
      simp only [true_and]
      constructor
      · intro hn
        exact Classical.not_not.mp fun hs => this.mpr hs hn
      · intro hs
        cases hu : r.urn with
        | none => rfl
        | some u => exact absurd hs (this.mp (by rw [hu]; simp))
  · simp only [hk, not_false_eq_true, true_or, iff_true]
    exact (C22_unknown mode hk s r hr).1

example (j : JsonCodec) : ¬ (¬ KnownMode RFC7643Only ∨ RFC7643Only = RFC8141Only ∧ Spec.Silent8141 (lit "urn:ietf:params:scim:api:a")) := by
  rw [← C58_parse id j _ _ _ _ _ (Cases.does1 id j)]; simp

/-- C58 (options): `Parse` panics exactly if one of the options is nil; if none is, it is `parse` of `Urn.lean`. -/
theorem C58_options (s : Bytes) (options : List (Option Opt)) :
    (none ∈ options → Heap.parse s options = .panic .nilDeref) ∧
    (∀ opts, options = opts.map some → Heap.parse s options = Urn.parse s opts) := by
  have key : ∀ {m : Machine}, Start m.startParsingAt → none ∈ options → applyOptions m options = .panic .nilDeref := by
    induction options with
    | nil => intro m _ h; cases h
    | cons o options ih =>
      intro m hm h
      cases o with
      | none => rfl
      | some o =>
        obtain ⟨m', outs, h1, h2⟩ := execAll_ok hm o
        simp only [applyOptions, h1, Run.ok_bind]
        exact ih h2 (by simpa using h)
  have key2 : ∀ {m : Machine} {opts : List Opt}, Start m.startParsingAt → options = opts.map some →
      applyOptions m options = (do let (m, _) ← m.execAll opts.flatten; pure m) := by
    clear key
    induction options with
    | nil =>
      intro m opts _ h
      cases opts with
      | nil => rfl
      | cons _ _ => cases h
    | cons o options ih =>
      intro m opts hm h
      cases opts with
      | nil => cases h
      | cons o' opts =>
        simp only [List.map_cons, List.cons.injEq] at h
        obtain ⟨rfl, h⟩ := h
        obtain ⟨m', outs, h1, h2⟩ := execAll_ok hm o'
        simp only [applyOptions, h1, Run.ok_bind, ih h2 h, List.flatten_cons, execAll_append]
        obtain ⟨m'', outs', h3, _⟩ := execAll_ok h2 opts.flatten
        simp only [h3, Run.ok_bind, Run.pure_eq]
  refine ⟨fun h => ?_, fun opts h => ?_⟩
  · simp only [Heap.parse, key (m := { parsingModeSet := false }) (Or.inl rfl) h]
    rfl
  · simp only [Heap.parse, key2 (m := { parsingModeSet := false }) (Or.inl rfl) h, Urn.parse, newMachine]
    obtain ⟨m', outs, h1, _⟩ := execAll_ok (m := { parsingModeSet := false }) (Or.inl rfl) opts.flatten
    simp only [h1, Run.ok_bind, Run.pure_eq]
    rfl

/-! Beside the theorems: nil receivers and arguments. -/

example : NilPanics ⟨id, some⟩ (.unmarshalJSON none (lit "urn:a:b")) :=
  ⟨rfl, _, rfl, _, parsesTo_of (u := ((refMode RFC2141Only (lit "urn:a:b")).1.getD {})) (by decide)⟩
example : ¬ NilPanics ⟨id, some⟩ (.unmarshalJSON none (lit "urn:a")) := by
  rintro ⟨_, str, h1, h2⟩
  injection h1 with h1; subst h1
  exact not_accepts_of (by decide) h2
example : ({} : Mem).act id ⟨id, some⟩ (.equal none none) = .ok ({}, .bool false) := rfl
example : ∃ h1, ({} : Mem).act id ⟨id, some⟩ (.parse (lit "urn:ab:c?") [withParsingMode RFC8141Only]) = .ok (h1, .urn none true) := by
  simp only [Mem.act, C22_refuted]
  exact ⟨_, rfl⟩

/-! ## C59 -/

/-- The action returns a pointer to a URN that was not there before: `Parse`, `Normalize`, `&URN{}`, or a successful
`UnmarshalJSON` of a `URN8141`. -/
def Returns (g : Got) (a : Nat) : Prop := (∃ ok, g = .urn (some a) ok) ∨ g = .urn8141 (some a) none

theorem returns_fresh {uni : Bytes → Bytes} {j : JsonCodec} {h h1 : Mem} {b : Heap.Act} {g : Got} {a : Nat}
    (e : h.act uni j b = .ok (h1, g)) (hg : Returns g a) :
    a = h.urns.length ∧ (∃ x, h1.urns = h.urns ++ [x] ∧ ∀ s, x.scim = some s → h.scims.length ≤ s ∧ s < h1.scims.length) ∧
      ∃ l, h1.scims = h.scims ++ l := by
  have hmade : ∀ u : URN, (h.made u).1.urns = h.urns ∧ (∀ s, (h.made u).2.scim = some s → h.scims.length ≤ s ∧ s < (h.made u).1.scims.length) ∧
      ∃ l, (h.made u).1.scims = h.scims ++ l := by
    intro u
    unfold Mem.made
    split
    · exact ⟨rfl, fun s hs => (by cases hs), [], by simp⟩
    · next x _ => exact ⟨rfl, fun s hs => (by injection hs with hs; simp; omega), [x], rfl⟩
  have hno : g.urns = [] → False := by
    intro hn
    rcases hg with ⟨ok, rfl⟩ | rfl <;> simp [Got.urns] at hn
  cases b with
  | parse s options =>
    obtain ⟨r, _, e⟩ := bind_ok e
    cases hu : r.urn with
    | none =>
      rw [hu] at e
      injection e with e; injection e with e1 e2; subst e1; subst e2
      exact (hno rfl).elim
    | some u =>
      rw [hu] at e
      injection e with e; injection e with e1 e2; subst e1; subst e2
      obtain ⟨m1, m2, m3⟩ := hmade u
      rcases hg with ⟨ok, hg⟩ | hg
      · injection hg with hg
        replace hg : some (h.made u).1.urns.length = some a := hg
        injection hg with hg
        rw [m1] at hg
        exact ⟨hg.symm, ⟨(h.made u).2, congrArg (· ++ [(h.made u).2]) m1, m2⟩, m3⟩
      · cases hg
  | newURN =>
    injection e with e; injection e with e1 e2; subst e1; subst e2
    rcases hg with ⟨ok, hg⟩ | hg
    · injection hg with hg; injection hg with hg
      exact ⟨hg.symm, ⟨{}, rfl, fun s hs => (by cases hs)⟩, [], by simp⟩
    · cases hg
  | normalize p =>
    obtain ⟨x, _, e⟩ := bind_ok e
    injection e with e; injection e with e1 e2; subst e1; subst e2
    rcases hg with ⟨ok, hg⟩ | hg
    · injection hg with hg; injection hg with hg
      exact ⟨hg.symm, ⟨_, rfl, fun s hs => (by cases hs)⟩, [], by simp⟩
    · cases hg
  | unmarshal8141 p text =>
    simp only [Mem.act] at e
    cases hj : j.unmarshal text with
    | none =>
      rw [hj] at e
      injection e with e; injection e with e1 e2; subst e1; subst e2
      rcases hg with ⟨ok, hg⟩ | hg <;> cases hg
    | some str =>
      rw [hj] at e
      obtain ⟨r, _, e⟩ := bind_ok e
      split at e
      · injection e with e; injection e with e1 e2; subst e1; subst e2
        rcases hg with ⟨ok, hg⟩ | hg <;> cases hg
      · cases hu : r.urn with
        | none =>
          rw [hu] at e
          injection e with e; injection e with e1 e2; subst e1; subst e2
          exact (hno rfl).elim
        | some u =>
          rw [hu] at e
          injection e with e; injection e with e1 e2; subst e1; subst e2
          obtain ⟨m1, m2, m3⟩ := hmade u
          rcases hg with ⟨ok, hg⟩ | hg
          · cases hg
          · injection hg with hg
            replace hg : some (h.made u).1.urns.length = some a := hg
            injection hg with hg
            rw [m1] at hg
            exact ⟨hg.symm, ⟨(h.made u).2, congrArg (· ++ [(h.made u).2]) m1, m2⟩, m3⟩
  | newSCIM =>
    injection e with e; injection e with e1 e2; subst e1; subst e2
    exact (hno rfl).elim
  | equal p q =>
    cases q with
    | none =>
      injection e with e; injection e with e1 e2; subst e1; subst e2
      exact (hno rfl).elim
    | some b =>
      obtain ⟨x, _, e⟩ := bind_ok e
      obtain ⟨y, _, e⟩ := bind_ok e
      injection e with e; injection e with e1 e2; subst e1; subst e2
      exact (hno rfl).elim
  | unmarshalJSON p text =>
    simp only [Mem.act] at e
    cases hj : j.unmarshal text with
    | none =>
      rw [hj] at e
      injection e with e; injection e with e1 e2; subst e1; subst e2
      exact (hno rfl).elim
    | some str =>
      rw [hj] at e
      obtain ⟨r, _, e⟩ := bind_ok e
      split at e
      · injection e with e; injection e with e1 e2; subst e1; subst e2
        exact (hno rfl).elim
      · cases hu : r.urn with
        | none => rw [hu] at e; cases e
        | some v =>
          rw [hu] at e
          obtain ⟨h3, h4, e⟩ := bind_ok e
          injection e with e; injection e with e1 e2; subst e1; subst e2
          exact (hno rfl).elim
  | scimUnmarshalJSON p text =>
    obtain ⟨⟨x, er⟩, _, e⟩ := bind_ok e
    cases er with
    | some er =>
      injection e with e; injection e with e1 e2; subst e1; subst e2
      exact (hno rfl).elim
    | none =>
      obtain ⟨h3, h4, e⟩ := bind_ok e
      injection e with e; injection e with e1 e2; subst e1; subst e2
      exact (hno rfl).elim
  | setID p v | setSS p v | copy p q | setType p v | setName p v | setOther p v | copySCIM p q =>
    obtain ⟨x, hx, e⟩ := bind_ok e
    obtain ⟨h3, h4, e⟩ := bind_ok e
    injection e with e; injection e with e1 e2; subst e1; subst e2
    exact (hno rfl).elim
  | scim p | string p | isSCIM p | rfc p | rComponent p | qComponent p | fComponent p | marshalJSON p | id p | ss p
  | scimString p | scimMarshalJSON p | scimFields p | marshal8141 p =>
    obtain ⟨x, _, e⟩ := bind_ok e
    injection e with e; injection e with e1 e2; subst e1; subst e2
    exact (hno rfl).elim

/-- C59 (the new URN is safe): a URN that `Parse` or `Normalize` returned is changed by nothing that is done with
everything that existed before the call, and with what that leads to; as long as nobody is given the new pointer. -/
theorem C59_result_private {uni : Bytes → Bytes} {j : JsonCodec} {h h1 h2 : Mem} {b : Heap.Act} {g : Got} {a : Nat} {U S : List Nat}
    (hr : ReachableMem uni j h) (e : h.act uni j b = .ok (h1, g)) (hg : Returns g a)
    (runs : Runs uni j h1 (List.range h.urns.length) (List.range h.scims.length) h2 U S) :
    ∃ x, h1.urns[a]? = some x ∧ h2.urns[a]? = some x ∧ h2.value x = h1.value x := by
  obtain ⟨rfl, ⟨x, hx, hs⟩, l, hl⟩ := returns_fresh e hg
  have hsound := sound_of_reachable hr
  have hx1 : h1.urns[h.urns.length]? = some x := by rw [hx]; simp
  have hf := runs_frame (U := fun c => c ≠ h.urns.length) (S := fun s => x.scim ≠ some s) runs
    ⟨fun c hc => by rw [hx] at hc; simp at hc; omega,
     fun s hc hxs => by have := (hs s hxs).2; omega,
     fun c y s hc hy hys hxs => by
      rw [hx] at hy
      rw [List.getElem?_append] at hy
      split at hy
      · have := hsound c y s hy hys
        have := (hs s hxs).1
        omega
      · next hlt =>
        have : [x][c - h.urns.length]? = none := by rw [List.getElem?_eq_none_iff]; simp; omega
        rw [this] at hy; exact (by cases hy),
     fun c y s hy hys => by
      rw [hx] at hy
      rw [List.getElem?_append] at hy
      split at hy
      · have := hsound c y s hy hys
        rw [hl]; simp; omega
      · have : y = x := by
          by_cases h0 : c - h.urns.length = 0
          · rw [h0] at hy; simpa using hy.symm
          · have : [x][c - h.urns.length]? = none := by rw [List.getElem?_eq_none_iff]; simp; omega
            rw [this] at hy; cases hy
        subst this
        exact (hs s hys).2⟩
    (fun c hc => by have := List.mem_range.mp hc; omega)
    (fun s hc hxs => by have := List.mem_range.mp hc; have := (hs s hxs).1; omega)
  refine ⟨x, hx1, (hf.urns _ (fun h => h rfl)).trans hx1, ?_⟩
  simp only [Mem.value]
  cases hxs : x.scim with
  | none => rfl
  | some s =>
    simp only [Option.bind_some]
    rw [hf.scims s (fun h => h hxs)]

/-- `Normalize` of a URN; then the SCIM struct of that URN is changed. -/
example (j : JsonCodec) : ∃ (h2 : Mem) (x : Obj), h2.scims ≠ Cases.h3.scims ∧ Cases.h3.urns[1]? = some x ∧ h2.urns[1]? = some x ∧ h2.value x = Cases.h3.value x := by
  have runs : Runs id j Cases.h3 (List.range Cases.h1.urns.length) (List.range Cases.h1.scims.length) _ _ _ :=
    .cons (a := .setName (some 0) (lit "z")) (g := .unit) (by decide) (by decide) rfl (.nil _ _ _)
  obtain ⟨x, h⟩ := C59_result_private (Cases.reach1 id j) (Cases.does3 j) (a := 1) (Or.inl ⟨true, rfl⟩) runs
  exact ⟨_, x, by decide, h⟩

/-- C59 (the other way round): nothing that is done with a URN that `Parse` or `Normalize` returned, and with what it leads
to, changes a URN or a SCIM struct that existed before the call. -/
theorem C59_others_private {uni : Bytes → Bytes} {j : JsonCodec} {h h1 h2 : Mem} {b : Heap.Act} {g : Got} {a : Nat} {U S : List Nat}
    (hr : ReachableMem uni j h) (e : h.act uni j b = .ok (h1, g)) (hg : Returns g a) (runs : Runs uni j h1 [a] [] h2 U S) :
    (∀ (c : Nat) (y : Obj), h.urns[c]? = some y → h2.urns[c]? = some y ∧ h2.value y = h.value y) ∧
    ∀ (s : Nat) (y : SCIM), h.scims[s]? = some y → h2.scims[s]? = some y := by
  obtain ⟨rfl, ⟨x, hx, hs⟩, l, hl⟩ := returns_fresh e hg
  have hsound := sound_of_reachable hr
  have hf := runs_frame (U := fun c => h.urns.length ≤ c) (S := fun s => h.scims.length ≤ s) runs
    ⟨fun c hc => by rw [hx] at hc; simp at hc; omega,
     fun s hc => by rw [hl] at hc; simp at hc; omega,
     fun c y s hc hy hys => by
      rw [hx] at hy
      rw [List.getElem?_append_right hc] at hy
      have : y = x := by
        by_cases h0 : c - h.urns.length = 0
        · rw [h0] at hy; simpa using hy.symm
        · have : [x][c - h.urns.length]? = none := by rw [List.getElem?_eq_none_iff]; simp; omega
          rw [this] at hy; cases hy
      subst this
      exact (hs s hys).1,
     fun c y s hy hys => by
      rw [hx] at hy
      rw [List.getElem?_append] at hy
      split at hy
      · have := hsound c y s hy hys
        rw [hl]; simp; omega
      · have : y = x := by
          by_cases h0 : c - h.urns.length = 0
          · rw [h0] at hy; simpa using hy.symm
          · have : [x][c - h.urns.length]? = none := by rw [List.getElem?_eq_none_iff]; simp; omega
            rw [this] at hy; cases hy
        subst this
        exact (hs s hys).2⟩
    (fun c hc => by simp at hc; omega) (fun s hc => by cases hc)
  have hscims : ∀ (s : Nat), s < h.scims.length → h2.scims[s]? = h.scims[s]? := by
    intro s hlt
    rw [hf.scims s (by omega), hl, List.getElem?_append_left hlt]
  refine ⟨fun c y hy => ?_, fun s y hy => ?_⟩
  · have hlt : c < h.urns.length := (List.getElem?_eq_some_iff.mp hy).1
    refine ⟨?_, ?_⟩
    · rw [hf.urns c (by omega), hx, List.getElem?_append_left hlt, hy]
    · simp only [Mem.value]
      cases hys : y.scim with
      | none => rfl
      | some s =>
        simp only [Option.bind_some]
        rw [hscims s (hsound c y s hy hys)]
  · rw [hscims s (List.getElem?_eq_some_iff.mp hy).1, hy]

/-- `Normalize` of a URN; then the result is changed. -/
example (j : JsonCodec) : ∃ h2 : Mem, h2.urns ≠ Cases.h3.urns ∧
    (∀ (c : Nat) (y : Obj), Cases.h1.urns[c]? = some y → h2.urns[c]? = some y ∧ h2.value y = Cases.h1.value y) ∧
    ∀ (s : Nat) (y : SCIM), Cases.h1.scims[s]? = some y → h2.scims[s]? = some y := by
  have runs : Runs id j Cases.h3 [1] [] _ _ _ :=
    .cons (a := .setID (some 1) (lit "x")) (g := .unit) (by decide) (by decide) rfl (.nil _ _ _)
  exact ⟨_, by decide, C59_others_private (Cases.reach1 id j) (Cases.does3 j) (a := 1) (Or.inl ⟨true, rfl⟩) runs⟩

/-- C59 (`Parse`): the object has the value that `Parse` computes. -/
theorem C59_parse_value {uni : Bytes → Bytes} {j : JsonCodec} {h h1 : Mem} {s : Bytes} {opts : List Opt} {a : Nat} {ok : Bool}
    (e : h.act uni j (.parse s opts) = .ok (h1, .urn (some a) ok)) :
    ∃ r u x, Urn.parse s opts = .ok r ∧ r.urn = some u ∧ h1.urns[a]? = some x ∧ h1.value x = u := by
  obtain ⟨r, hr, e⟩ := bind_ok e
  cases hu : r.urn with
  | none => rw [hu] at e; injection e with e; injection e with e1 e2; cases e2
  | some u =>
    rw [hu] at e
    injection e with e; injection e with e1 e2; injection e2 with e2 e3
    replace e1 : ((h.made u).1.new (h.made u).2).1 = h1 := e1
    replace e2 : some (h.made u).1.urns.length = some a := e2
    injection e2 with e2
    subst e1; subst e2
    refine ⟨r, u, (h.made u).2, hr, hu, List.getElem?_concat_length, ?_⟩
    simp only [Mem.value, Mem.new, Mem.made]
    cases hsc : u.scim with
    | none =>
      simp only [Option.bind_none]
      rw [← hsc]
    | some y =>
      simp only [Option.bind_some]
      rw [List.getElem?_concat_length, ← hsc]

example : ∃ r u x, Urn.parse (lit "urn:ietf:params:scim:api:a") [withParsingMode RFC7643Only] = .ok r ∧ r.urn = some u ∧
    Cases.h1.urns[0]? = some x ∧ Cases.h1.value x = u := C59_parse_value (Cases.does1 id ⟨id, some⟩)

/-- C59 (texts): the text, the normal form, equality and the JSON of a URN do not depend on any SCIM struct. -/
theorem C59_text (uni : Bytes → Bytes) (j : JsonCodec) (h h' : Mem) (x y : Obj) :
    (h.value x).string = (h'.value x).string ∧ (h.value x).normalize uni = (h'.value x).normalize uni ∧
    (h.value x).equal uni (some (h.value y)) = (h'.value x).equal uni (some (h'.value y)) ∧
    (h.value x).marshalJSON j = (h'.value x).marshalJSON j := ⟨rfl, rfl, rfl, rfl⟩

/-- C59 (refuted for copies): a copy of the struct shares the SCIM struct: a write to the name in the copy shows in the
original (pointer 0 is the parsed URN, pointer 1 the copy). -/
theorem C59_copy_refuted (uni : Bytes → Bytes) (j : JsonCodec) :
    ∃ h, ({} : Mem).acts uni j [.parse (lit "urn:ietf:params:scim:api:a") [withParsingMode RFC7643Only], .newURN, .copy (some 1) (some 0),
        .scim (some 1), .setName (some 0) (lit "b"), .scim (some 0), .scimFields (some 0), .string (some 0)] =
      .ok (h, [.urn (some 0) true, .urn (some 1) true, .unit, .scim (some 0), .unit, .scim (some 0), .fields SchemaType.API (lit "b") [],
        .bytes (lit "urn:ietf:params:scim:api:a")]) := by
  have hp : Urn.parse (lit "urn:ietf:params:scim:api:a") [withParsingMode RFC7643Only] = _ := parse_mode _ _
  simp only [Mem.acts, Mem.act, hp]
  exact ⟨_, rfl⟩

/-- C59 (refuted for the SCIM struct of a URN): decoding into it leaves the URN as it was, so the two disagree. -/
theorem C59_scim_refuted (uni : Bytes → Bytes) (j : JsonCodec) (t : Bytes) (hj : j.unmarshal t = some (lit "urn:ietf:params:scim:api:b")) :
    ∃ h, ({} : Mem).acts uni j [.parse (lit "urn:ietf:params:scim:api:a") [withParsingMode RFC7643Only], .scim (some 0),
        .scimUnmarshalJSON (some 0) t, .string (some 0), .scim (some 0), .scimString (some 0)] =
      .ok (h, [.urn (some 0) true, .scim (some 0), .err none, .bytes (lit "urn:ietf:params:scim:api:a"), .scim (some 0),
        .bytes (lit "urn:ietf:params:scim:api:b")]) := by
  have hp : Urn.parse (lit "urn:ietf:params:scim:api:a") [withParsingMode RFC7643Only] = _ := parse_mode _ _
  have hp2 : Urn.parse (lit "urn:ietf:params:scim:api:b") [withParsingMode RFC7643Only] = _ := parse_mode _ _
  simp only [Mem.acts, Mem.act, hp, SCIM.unmarshalJSON, hj, hp2]
  exact ⟨_, rfl⟩

example := C59_scim_refuted id ⟨id, some⟩ (lit "urn:ietf:params:scim:api:b") rfl

/-! Beside the theorems: a program that parses two URNs, changes the second, and decodes into its SCIM struct.  The hypotheses
of `C59_others_private` hold, and the first URN is as it was. -/

example : ∃ h h1 h2 U S, ReachableMem id ⟨id, some⟩ h ∧
    h.act id ⟨id, some⟩ (.parse (lit "urn:ietf:params:scim:api:b") [withParsingMode RFC7643Only]) = .ok (h1, .urn (some 1) true) ∧
    Runs id ⟨id, some⟩ h1 [1] [] h2 U S ∧ h2.urns.length = 2 ∧ h2.urns[1]? ≠ h1.urns[1]? ∧
    h2.scims.map (fun x => (x.Typ, x.Name)) = [(SchemaType.API, lit "a"), (SchemaType.Param, lit "z")] := by
  have p1 : Urn.parse (lit "urn:ietf:params:scim:api:a") [withParsingMode RFC7643Only] = _ := parse_mode _ _
  have p2 : Urn.parse (lit "urn:ietf:params:scim:api:b") [withParsingMode RFC7643Only] = _ := parse_mode _ _
  have p3 : Urn.parse (lit "urn:ietf:params:scim:param:z") [withParsingMode RFC7643Only] = _ := parse_mode _ _
  refine ⟨_, _, _, _, _, ⟨_, _, .cons (a := .parse (lit "urn:ietf:params:scim:api:a") [withParsingMode RFC7643Only]) (by simp [Heap.Act.urns]) (by simp [Heap.Act.scims])
    (by simp only [Mem.act, p1]; rfl) (.nil _ _ _)⟩, by simp only [Mem.act, p2]; rfl,
    .cons (a := .setID (some 1) (lit "x")) (g := .unit) (by simp [Heap.Act.urns]) (by simp [Heap.Act.scims]) rfl
      (.cons (a := .scim (some 1)) (g := .scim (some 1)) (by simp [Heap.Act.urns, Got.urns]) (by simp [Heap.Act.scims]) rfl
        (.cons (a := .scimUnmarshalJSON (some 1) (lit "urn:ietf:params:scim:param:z")) (g := .err none) (by simp [Heap.Act.urns]) (by simp [Heap.Act.scims, Got.scims])
          (by simp only [Mem.act, SCIM.unmarshalJSON, p3]; rfl) (.nil _ _ _))), ?_, ?_, ?_⟩
  · decide
  · decide
  · decide

end Urn
