import Verif.Heap
import Verif.PropsJson
/-!
# Lemmas about pointers
-/
set_option autoImplicit false
namespace Urn.Heap

theorem bind_ok {α β : Type} {x : Run α} {f : α → Run β} {r : β} (h : (x >>= f) = .ok r) : ∃ a, x = .ok a ∧ f a = .ok r := by
  cases x with
  | ok a => exact ⟨a, rfl, h⟩
  | panic p => cases h
  | diverge => cases h

theorem obj_ok {h : Mem} {p : Ptr} {x : Obj} (e : h.obj p = .ok x) : ∃ a, p = some a ∧ h.urns[a]? = some x := by
  cases p with
  | none => cases e
  | some a =>
    simp only [Mem.obj] at e
    cases hx : h.urns[a]? with
    | none => rw [hx] at e; cases e
    | some y => rw [hx] at e; injection e with e; subst e; exact ⟨a, rfl, hx⟩

theorem setObj_ok {h h1 : Mem} {p : Ptr} {x : Obj} (e : h.setObj p x = .ok h1) :
    ∃ a, p = some a ∧ a < h.urns.length ∧ h1 = { h with urns := h.urns.set a x } := by
  cases p with
  | none => cases e
  | some a =>
    simp only [Mem.setObj] at e
    split at e
    · next hl => injection e with e; exact ⟨a, rfl, hl, e.symm⟩
    · cases e

theorem setScim_ok {h h1 : Mem} {p : Ptr} {x : SCIM} (e : h.setScim p x = .ok h1) :
    ∃ a, p = some a ∧ a < h.scims.length ∧ h1 = { h with scims := h.scims.set a x } := by
  cases p with
  | none => cases e
  | some a =>
    simp only [Mem.setScim] at e
    split at e
    · next hl => injection e with e; exact ⟨a, rfl, hl, e.symm⟩
    · cases e

/-- No pointer to a SCIM struct that is not there. -/
def Sound (h : Mem) : Prop := ∀ (a : Nat) (x : Obj) (s : Nat), h.urns[a]? = some x → x.scim = some s → s < h.scims.length

/-- A part of the memory: the URNs in `U` point to SCIM structs in `S`; what is new is in the part. -/
structure Part (U S : Nat → Prop) (h : Mem) : Prop where
  newU : ∀ a, h.urns.length ≤ a → U a
  newS : ∀ s, h.scims.length ≤ s → S s
  own : ∀ a x s, U a → h.urns[a]? = some x → x.scim = some s → S s
  sound : Sound h

/-- `h1` differs from `h` in the part only. -/
structure Frame (U S : Nat → Prop) (h h1 : Mem) : Prop where
  part : Part U S h1
  lenU : h.urns.length ≤ h1.urns.length
  lenS : h.scims.length ≤ h1.scims.length
  urns : ∀ b, ¬ U b → h1.urns[b]? = h.urns[b]?
  scims : ∀ s, ¬ S s → h1.scims[s]? = h.scims[s]?

variable {U S : Nat → Prop} {h h1 h2 : Mem}

theorem Frame.refl (hp : Part U S h) : Frame U S h h := ⟨hp, Nat.le_refl _, Nat.le_refl _, fun _ _ => rfl, fun _ _ => rfl⟩

theorem Frame.trans (f : Frame U S h h1) (g : Frame U S h1 h2) : Frame U S h h2 :=
  ⟨g.part, Nat.le_trans f.lenU g.lenU, Nat.le_trans f.lenS g.lenS, fun b hb => (g.urns b hb).trans (f.urns b hb),
    fun s hs => (g.scims s hs).trans (f.scims s hs)⟩

theorem frame_new (hp : Part U S h) {x : Obj} (hx : ∀ s, x.scim = some s → S s ∧ s < h.scims.length) :
    Frame U S h (h.new x).1 ∧ ∃ a, (h.new x).2 = some a ∧ U a := by
  have key : ∀ (a : Nat) (y : Obj), (h.urns ++ [x])[a]? = some y → h.urns[a]? = some y ∨ y = x := by
    intro a y hy
    rw [List.getElem?_append] at hy
    split at hy
    · exact Or.inl hy
    · right
      by_cases h0 : a - h.urns.length = 0
      · rw [h0] at hy; simpa using hy.symm
      · have : [x][a - h.urns.length]? = none := by rw [List.getElem?_eq_none_iff]; simp; omega
        rw [this] at hy; cases hy
  refine ⟨⟨⟨?_, hp.newS, ?_, ?_⟩, by simp [Mem.new], by simp [Mem.new], ?_, fun _ _ => rfl⟩, _, rfl, hp.newU _ (Nat.le_refl _)⟩
  · intro a ha
    simp only [Mem.new, List.length_append, List.length_singleton] at ha
    exact hp.newU a (by omega)
  · intro a y s ha hy hs
    rcases key a y hy with hy | rfl
    · exact hp.own a y s ha hy hs
    · exact (hx s hs).1
  · intro a y s hy hs
    rcases key a y hy with hy | rfl
    · exact hp.sound a y s hy hs
    · exact (hx s hs).2
  · intro b hb
    have hl : b < h.urns.length := Nat.lt_of_not_le fun hle => hb (hp.newU b hle)
    simp only [Mem.new]
    exact List.getElem?_append_left hl

theorem frame_scim (hp : Part U S h) (x : SCIM) : Frame U S h { h with scims := h.scims ++ [x] } := by
  refine ⟨⟨hp.newU, ?_, fun a y s ha hy hs => hp.own a y s ha hy hs, ?_⟩, Nat.le_refl _, by simp, fun _ _ => rfl, ?_⟩
  · intro a ha
    simp only [List.length_append, List.length_singleton] at ha
    exact hp.newS a (by omega)
  · intro a y s hy hs
    have := hp.sound a y s hy hs
    simp only [List.length_append, List.length_singleton]
    omega
  · intro b hb
    have hl : b < h.scims.length := Nat.lt_of_not_le fun hle => hb (hp.newS b hle)
    exact List.getElem?_append_left hl

theorem frame_made (hp : Part U S h) (u : URN) : Frame U S h (h.made u).1 ∧ ∀ s, (h.made u).2.scim = some s → S s ∧ s < (h.made u).1.scims.length := by
  unfold Mem.made
  split
  · exact ⟨.refl hp, fun s hs => by cases hs⟩
  · next x _ =>
    exact ⟨frame_scim hp x, fun s hs => by injection hs with hs; exact ⟨hp.newS s (by omega), by simp; omega⟩⟩

theorem frame_setObj (hp : Part U S h) {p : Ptr} {x : Obj} (hx : ∀ s, x.scim = some s → S s ∧ s < h.scims.length) (hU : ∀ a, p = some a → U a)
    (e : h.setObj p x = .ok h1) : Frame U S h h1 := by
  obtain ⟨a, ha, hl, rfl⟩ := setObj_ok e
  have key : ∀ (b : Nat) (y : Obj), (h.urns.set a x)[b]? = some y → h.urns[b]? = some y ∨ y = x := by
    intro b y hy
    by_cases hab : a = b
    · subst hab
      right
      simp only [List.getElem?_set, hl, if_true] at hy; simpa using hy.symm
    · simp only [List.getElem?_set, hab, if_false] at hy
      exact Or.inl hy
  refine ⟨⟨?_, hp.newS, ?_, ?_⟩, by simp, Nat.le_refl _, ?_, fun _ _ => rfl⟩
  · intro b hb; simp only [List.length_set] at hb; exact hp.newU b hb
  · intro b y s hb hy hs
    rcases key b y hy with hy | rfl
    · exact hp.own b y s hb hy hs
    · exact (hx s hs).1
  · intro b y s hy hs
    rcases key b y hy with hy | rfl
    · exact hp.sound b y s hy hs
    · exact (hx s hs).2
  · intro b hb
    have hab : a ≠ b := fun e => hb (e ▸ hU a ha)
    simp only [List.getElem?_set, hab, if_false]

theorem frame_setScim (hp : Part U S h) {p : Ptr} {x : SCIM} (hS : ∀ a, p = some a → S a)
    (e : h.setScim p x = .ok h1) : Frame U S h h1 := by
  obtain ⟨a, ha, hl, rfl⟩ := setScim_ok e
  refine ⟨⟨hp.newU, ?_, fun b y s hb hy hs => hp.own b y s hb hy hs, fun b y s hy hs => by simpa using hp.sound b y s hy hs⟩,
    Nat.le_refl _, by simp, fun _ _ => rfl, ?_⟩
  · intro b hb; simp only [List.length_set] at hb; exact hp.newS b hb
  · intro b hb
    have hab : a ≠ b := fun e => hb (e ▸ hS a ha)
    simp only [List.getElem?_set, hab, if_false]

/-- What an action gives and changes. -/
def Within (U S : Nat → Prop) (h h1 : Mem) (g : Got) : Prop :=
  Frame U S h h1 ∧ (∀ x ∈ g.urns, U x) ∧ ∀ x ∈ g.scims, S x

theorem within_same (hp : Part U S h) {g : Got} (h1 : g.urns = []) (h2 : g.scims = []) : Within U S h h g :=
  ⟨.refl hp, by simp [h1], by simp [h2]⟩

theorem within_of_frame (hf : Frame U S h h1) {g : Got} (e1 : g.urns = []) (e2 : g.scims = []) : Within U S h h1 g :=
  ⟨hf, by simp [e1], by simp [e2]⟩

theorem within_made (hp : Part U S h) (u : URN) (f : Ptr → Got) (h1 : ∀ p, (f p).urns = p.toList) (h2 : ∀ p, (f p).scims = []) :
    Within U S h ((h.made u).1.new (h.made u).2).1 (f ((h.made u).1.new (h.made u).2).2) := by
  obtain ⟨f1, hs⟩ := frame_made hp u
  obtain ⟨f2, a, ha, hU⟩ := frame_new f1.part hs
  refine ⟨f1.trans f2, fun x hx => ?_, fun x hx => ?_⟩
  · rw [h1, ha] at hx; simp at hx; rw [hx]; exact hU
  · rw [h2] at hx; cases hx

/-- Each action stays within the part that the client has pointers to. -/
theorem act_within {uni : Bytes → Bytes} {j : JsonCodec} (hp : Part U S h) {a : Act} {g : Got} (hU : ∀ x ∈ a.urns, U x)
    (hS : ∀ x ∈ a.scims, S x) (e : h.act uni j a = .ok (h1, g)) : Within U S h h1 g := by
  cases a with
  | parse s options =>
    obtain ⟨r, _, e⟩ := bind_ok e
    cases hu : r.urn with
    | none =>
      rw [hu] at e
      injection e with e; injection e with e1 e2; subst e1; subst e2
      exact within_same hp rfl rfl
    | some u =>
      rw [hu] at e
      injection e with e; injection e with e1 e2; subst e1; subst e2
      exact within_made hp u (fun p => .urn p r.ok) (fun _ => rfl) (fun _ => rfl)
  | newURN =>
    injection e with e; injection e with e1 e2; subst e1; subst e2
    obtain ⟨f2, a, ha, hU⟩ := frame_new hp (x := {}) (fun s hs => by cases hs)
    refine ⟨f2, fun x hx => ?_, fun x hx => by cases hx⟩
    have : x = h.urns.length := by simpa [Got.urns] using hx
    rw [this]; exact hp.newU _ (Nat.le_refl _)
  | newSCIM =>
    injection e with e; injection e with e1 e2; subst e1; subst e2
    refine ⟨frame_scim hp _, (fun x hx => by cases hx), fun x hx => ?_⟩
    simp [Got.scims] at hx
    exact hp.newS x (by omega)
  | normalize p =>
    obtain ⟨x, _, e⟩ := bind_ok e
    injection e with e; injection e with e1 e2; subst e1; subst e2
    obtain ⟨f2, a, ha, hU⟩ := frame_new hp (x := ⟨(h.value x).normalize uni, none⟩) (fun s hs => by cases hs)
    refine ⟨f2, fun x hx => ?_, fun x hx => by cases hx⟩
    have : x = h.urns.length := by simpa [Got.urns] using hx
    rw [this]; exact hp.newU _ (Nat.le_refl _)
  | equal p q =>
    cases q with
    | none =>
      injection e with e; injection e with e1 e2; subst e1; subst e2
      exact within_same hp rfl rfl
    | some b =>
      obtain ⟨x, _, e⟩ := bind_ok e
      obtain ⟨y, _, e⟩ := bind_ok e
      injection e with e; injection e with e1 e2; subst e1; subst e2
      exact within_same hp rfl rfl
  | scim p =>
    obtain ⟨x, hx, e⟩ := bind_ok e
    injection e with e; injection e with e1 e2; subst e1; subst e2
    obtain ⟨a, rfl, ha⟩ := obj_ok hx
    refine ⟨.refl hp, (fun x hx => by cases hx), fun s hs => ?_⟩
    simp only [Got.scims] at hs
    split at hs
    · cases hs
    · exact hp.own a x s (hU a (by simp [Act.urns])) ha (by simpa using hs)
  | unmarshalJSON p text =>
    simp only [Mem.act] at e
    cases hj : j.unmarshal text with
    | none =>
      rw [hj] at e
      injection e with e; injection e with e1 e2; subst e1; subst e2
      exact within_same hp rfl rfl
    | some str =>
      rw [hj] at e
      obtain ⟨r, _, e⟩ := bind_ok e
      split at e
      · injection e with e; injection e with e1 e2; subst e1; subst e2
        exact within_same hp rfl rfl
      · cases hu : r.urn with
        | none => rw [hu] at e; cases e
        | some v =>
          rw [hu] at e
          obtain ⟨h3, h4, e⟩ := bind_ok e
          injection e with e; injection e with e1 e2; subst e1; subst e2
          obtain ⟨f1, hs⟩ := frame_made hp v
          exact within_of_frame (f1.trans (frame_setObj f1.part hs (fun a ha => hU a (by simp [Act.urns, ha])) h4)) rfl rfl
  | setID p v =>
    obtain ⟨x, hx, e⟩ := bind_ok e
    obtain ⟨h3, h4, e⟩ := bind_ok e
    injection e with e; injection e with e1 e2; subst e1; subst e2
    have hU' : ∀ a, p = some a → U a := fun a ha => hU a (by simp [Act.urns, ha])
    obtain ⟨a, ha, hx⟩ := obj_ok hx
    exact within_of_frame (frame_setObj hp (by intro s hs; exact ⟨hp.own a x s (hU' a ha) hx hs, hp.sound a x s hx hs⟩) hU' h4) rfl rfl
  | setSS p v =>
    obtain ⟨x, hx, e⟩ := bind_ok e
    obtain ⟨h3, h4, e⟩ := bind_ok e
    injection e with e; injection e with e1 e2; subst e1; subst e2
    have hU' : ∀ a, p = some a → U a := fun a ha => hU a (by simp [Act.urns, ha])
    obtain ⟨a, ha, hx⟩ := obj_ok hx
    exact within_of_frame (frame_setObj hp (by intro s hs; exact ⟨hp.own a x s (hU' a ha) hx hs, hp.sound a x s hx hs⟩) hU' h4) rfl rfl
  | copy p q =>
    obtain ⟨x, hx, e⟩ := bind_ok e
    obtain ⟨h3, h4, e⟩ := bind_ok e
    injection e with e; injection e with e1 e2; subst e1; subst e2
    obtain ⟨a, ha, hx⟩ := obj_ok hx
    exact within_of_frame (frame_setObj hp (fun s hs => ⟨hp.own a x s (hU a (by simp [Act.urns, ha])) hx hs, hp.sound a x s hx hs⟩)
      (fun a ha => hU a (by simp [Act.urns, ha])) h4) rfl rfl
  | scimUnmarshalJSON p text =>
    obtain ⟨⟨x, er⟩, _, e⟩ := bind_ok e
    cases er with
    | some er =>
      injection e with e; injection e with e1 e2; subst e1; subst e2
      exact within_same hp rfl rfl
    | none =>
      obtain ⟨h3, h4, e⟩ := bind_ok e
      injection e with e; injection e with e1 e2; subst e1; subst e2
      exact within_of_frame (frame_setScim hp (fun a ha => hS a (by simp [Act.scims, ha])) h4) rfl rfl
  | setType p v =>
    obtain ⟨x, hx, e⟩ := bind_ok e
    obtain ⟨h3, h4, e⟩ := bind_ok e
    injection e with e; injection e with e1 e2; subst e1; subst e2
    exact within_of_frame (frame_setScim hp (fun a ha => hS a (by simp [Act.scims, ha])) h4) rfl rfl
  | setName p v =>
    obtain ⟨x, hx, e⟩ := bind_ok e
    obtain ⟨h3, h4, e⟩ := bind_ok e
    injection e with e; injection e with e1 e2; subst e1; subst e2
    exact within_of_frame (frame_setScim hp (fun a ha => hS a (by simp [Act.scims, ha])) h4) rfl rfl
  | setOther p v =>
    obtain ⟨x, hx, e⟩ := bind_ok e
    obtain ⟨h3, h4, e⟩ := bind_ok e
    injection e with e; injection e with e1 e2; subst e1; subst e2
    exact within_of_frame (frame_setScim hp (fun a ha => hS a (by simp [Act.scims, ha])) h4) rfl rfl
  | copySCIM p q =>
    obtain ⟨x, hx, e⟩ := bind_ok e
    obtain ⟨h3, h4, e⟩ := bind_ok e
    injection e with e; injection e with e1 e2; subst e1; subst e2
    exact within_of_frame (frame_setScim hp (fun a ha => hS a (by simp [Act.scims, ha])) h4) rfl rfl
  | unmarshal8141 p text =>
    have hsame : ∀ er, Within U S h h (.urn8141 p er) := fun er =>
      ⟨.refl hp, fun x hx => hU x (by simpa [Act.urns, Got.urns] using hx), fun x hx => by cases hx⟩
    simp only [Mem.act] at e
    cases hj : j.unmarshal text with
    | none =>
      rw [hj] at e
      injection e with e; injection e with e1 e2; subst e1; subst e2
      exact hsame _
    | some str =>
      rw [hj] at e
      obtain ⟨r, _, e⟩ := bind_ok e
      split at e
      · injection e with e; injection e with e1 e2; subst e1; subst e2
        exact hsame _
      · cases hu : r.urn with
        | none =>
          rw [hu] at e
          injection e with e; injection e with e1 e2; subst e1; subst e2
          exact within_same hp rfl rfl
        | some u =>
          rw [hu] at e
          injection e with e; injection e with e1 e2; subst e1; subst e2
          exact within_made hp u (fun p => .urn8141 p none) (fun _ => rfl) (fun _ => rfl)
  | string p | isSCIM p | rfc p | rComponent p | qComponent p | fComponent p | marshalJSON p | id p | ss p
  | scimString p | scimMarshalJSON p | scimFields p | marshal8141 p =>
    obtain ⟨x, _, e⟩ := bind_ok e
    injection e with e; injection e with e1 e2; subst e1; subst e2
    exact within_same hp rfl rfl

theorem runs_frame {uni : Bytes → Bytes} {j : JsonCodec} {L K L' K' : List Nat} (r : Runs uni j h L K h2 L' K') :
    Part U S h → (∀ x ∈ L, U x) → (∀ x ∈ K, S x) → Frame U S h h2 := by
  induction r with
  | nil h L K => intro hp _ _; exact .refl hp
  | cons hL hK e _ ih =>
    intro hp hU hS
    obtain ⟨f, gU, gS⟩ := act_within hp (fun x hx => hU x (hL x hx)) (fun x hx => hS x (hK x hx)) e
    refine f.trans (ih f.part ?_ ?_)
    · intro x hx
      rcases List.mem_append.mp hx with hx | hx
      · exact gU x hx
      · exact hU x hx
    · intro x hx
      rcases List.mem_append.mp hx with hx | hx
      · exact gS x hx
      · exact hS x hx

/-- The pointers that an action gives point to objects. -/
theorem got_valid {uni : Bytes → Bytes} {j : JsonCodec} (hs : Sound h) {a : Act} {g : Got} (hU : ∀ x ∈ a.urns, x < h.urns.length)
    (hS : ∀ x ∈ a.scims, x < h.scims.length) (e : h.act uni j a = .ok (h1, g)) :
    (∀ x ∈ g.urns, x < h1.urns.length) ∧ ∀ x ∈ g.scims, x < h1.scims.length := by
  have hn : g.urns = [] → g.scims = [] → (∀ x ∈ g.urns, x < h1.urns.length) ∧ ∀ x ∈ g.scims, x < h1.scims.length := by
    intro e1 e2; simp [e1, e2]
  cases a with
  | parse s options =>
    obtain ⟨r, _, e⟩ := bind_ok e
    cases hu : r.urn with
    | none =>
      rw [hu] at e
      injection e with e; injection e with e1 e2; subst e1; subst e2
      exact hn rfl rfl
    | some u =>
      rw [hu] at e
      injection e with e; injection e with e1 e2; subst e1; subst e2
      simp [Got.urns, Got.scims]
  | newURN =>
    injection e with e; injection e with e1 e2; subst e1; subst e2
    simp [Got.urns, Got.scims]
  | newSCIM =>
    injection e with e; injection e with e1 e2; subst e1; subst e2
    simp [Got.urns, Got.scims]
  | normalize p =>
    obtain ⟨x, _, e⟩ := bind_ok e
    injection e with e; injection e with e1 e2; subst e1; subst e2
    simp [Got.urns, Got.scims]
  | scim p =>
    obtain ⟨x, hx, e⟩ := bind_ok e
    injection e with e; injection e with e1 e2; subst e1; subst e2
    obtain ⟨a, rfl, ha⟩ := obj_ok hx
    refine ⟨fun x hx => (by cases hx), fun s hs' => ?_⟩
    simp only [Got.scims] at hs'
    split at hs'
    · cases hs'
    · exact hs a x s ha (by simpa using hs')
  | unmarshal8141 p text =>
    have hsame : ∀ er, (∀ x ∈ (Got.urn8141 p er).urns, x < h.urns.length) ∧ ∀ x ∈ (Got.urn8141 p er).scims, x < h.scims.length :=
      fun er => ⟨fun x hx => hU x (by simpa [Act.urns, Got.urns] using hx), fun x hx => by cases hx⟩
    simp only [Mem.act] at e
    cases hj : j.unmarshal text with
    | none =>
      rw [hj] at e
      injection e with e; injection e with e1 e2; subst e1; subst e2
      exact hsame _
    | some str =>
      rw [hj] at e
      obtain ⟨r, _, e⟩ := bind_ok e
      split at e
      · injection e with e; injection e with e1 e2; subst e1; subst e2
        exact hsame _
      · cases hu : r.urn with
        | none =>
          rw [hu] at e
          injection e with e; injection e with e1 e2; subst e1; subst e2
          exact hn rfl rfl
        | some u =>
          rw [hu] at e
          injection e with e; injection e with e1 e2; subst e1; subst e2
          simp [Got.urns, Got.scims, Mem.new]
  | equal p q =>
    cases q with
    | none =>
      injection e with e; injection e with e1 e2; subst e1; subst e2
      exact hn rfl rfl
    | some b =>
      obtain ⟨x, _, e⟩ := bind_ok e
      obtain ⟨y, _, e⟩ := bind_ok e
      injection e with e; injection e with e1 e2; subst e1; subst e2
      exact hn rfl rfl
  | unmarshalJSON p text =>
    simp only [Mem.act] at e
    cases hj : j.unmarshal text with
    | none =>
      rw [hj] at e
      injection e with e; injection e with e1 e2; subst e1; subst e2
      exact hn rfl rfl
    | some str =>
      rw [hj] at e
      obtain ⟨r, _, e⟩ := bind_ok e
      split at e
      · injection e with e; injection e with e1 e2; subst e1; subst e2
        exact hn rfl rfl
      · cases hu : r.urn with
        | none => rw [hu] at e; cases e
        | some v =>
          rw [hu] at e
          obtain ⟨h3, h4, e⟩ := bind_ok e
          injection e with e; injection e with e1 e2; subst e1; subst e2
          exact hn rfl rfl
  | scimUnmarshalJSON p text =>
    obtain ⟨⟨x, er⟩, _, e⟩ := bind_ok e
    cases er with
    | some er =>
      injection e with e; injection e with e1 e2; subst e1; subst e2
      exact hn rfl rfl
    | none =>
      obtain ⟨h3, h4, e⟩ := bind_ok e
      injection e with e; injection e with e1 e2; subst e1; subst e2
      exact hn rfl rfl
  | setID p v | setSS p v | copy p q | setType p v | setName p v | setOther p v | copySCIM p q =>
    obtain ⟨x, hx, e⟩ := bind_ok e
    obtain ⟨h3, h4, e⟩ := bind_ok e
    injection e with e; injection e with e1 e2; subst e1; subst e2
    exact hn rfl rfl
  | string p | isSCIM p | rfc p | rComponent p | qComponent p | fComponent p | marshalJSON p | id p | ss p
  | scimString p | scimMarshalJSON p | scimFields p | marshal8141 p =>
    obtain ⟨x, _, e⟩ := bind_ok e
    injection e with e; injection e with e1 e2; subst e1; subst e2
    exact hn rfl rfl

end Urn.Heap
