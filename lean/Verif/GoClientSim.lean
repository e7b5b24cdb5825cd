import Verif.GoClientFns
import Verif.PropsMethods
/-!
# Clients: the memory of the text and the memory of the model

`Sim` says that the objects of a memory of the model are at given addresses in a memory of the interpreter.
-/
set_option autoImplicit false
set_option linter.unusedSimpArgs false
set_option maxRecDepth 10000000
namespace Urn.GoLang
open Urn.Heap

/-- A pointer of the model as an address. -/
def look (U : List Nat) (p : Option Nat) : Option Nat := p.bind fun k => U[k]?

/-- The struct of a URN at an address. -/
def UrnCell (h : Heap) (S : List Nat) (a : Nat) (x : Obj) : Prop :=
  ∃ tl, h[a]? = some (.obj (urnValW (look S x.scim) tl x.fields)) ∧ posVal x.fields.tolower tl ∧ ∀ k, x.scim = some k → k < S.length

structure Sim (M : Mem) (h : Heap) (U S : List Nat) : Prop where
  lenU : U.length = M.urns.length
  lenS : S.length = M.scims.length
  ndU : U.Nodup
  ndS : S.Nodup
  urn : ∀ (i a : Nat) (x : Obj), U[i]? = some a → M.urns[i]? = some x → UrnCell h S a x
  scim : ∀ (j b : Nat) (s : SCIM), S[j]? = some b → M.scims[j]? = some s → h[b]? = some (.obj (scimVal s))

section
variable {M : Mem} {h h' : Heap} {U S : List Nat}

theorem look_none : look U none = none := rfl

theorem look_app {p : Option Nat} {l : List Nat} (hp : ∀ k, p = some k → k < U.length) : look (U ++ l) p = look U p := by
  cases p with
  | none => rfl
  | some k => exact List.getElem?_append_left (hp k rfl)

theorem Sim.lookU (r : Sim M h U S) {k : Nat} (hk : k < U.length) : ∃ a x, U[k]? = some a ∧ M.urns[k]? = some x ∧ UrnCell h S a x := by
  have h1 : M.urns[k]? = some (M.urns[k]'(by rw [← r.lenU]; exact hk)) := List.getElem?_eq_getElem _
  exact ⟨U[k], _, List.getElem?_eq_getElem _, h1, r.urn k _ _ (List.getElem?_eq_getElem _) h1⟩

theorem Sim.lookS (r : Sim M h U S) {k : Nat} (hk : k < S.length) : ∃ a s, S[k]? = some a ∧ M.scims[k]? = some s ∧ h[a]? = some (.obj (scimVal s)) := by
  have h1 : M.scims[k]? = some (M.scims[k]'(by rw [← r.lenS]; exact hk)) := List.getElem?_eq_getElem _
  exact ⟨S[k], _, List.getElem?_eq_getElem _, h1, r.scim k _ _ (List.getElem?_eq_getElem _) h1⟩

theorem UrnCell.lt {a : Nat} {x : Obj} (r : UrnCell h S a x) : a < h.length := by
  obtain ⟨tl, h1, _⟩ := r
  exact (List.getElem?_eq_some_iff.1 h1).1

theorem Sim.ltU (r : Sim M h U S) {a : Nat} (ha : a ∈ U) : a < h.length := by
  obtain ⟨i, hi⟩ := List.mem_iff_getElem?.1 ha
  obtain ⟨b, x, h1, _, h2⟩ := r.lookU (List.getElem?_eq_some_iff.1 hi).1
  rw [hi] at h1
  cases h1
  exact h2.lt

theorem Sim.ltS (r : Sim M h U S) {a : Nat} (ha : a ∈ S) : a < h.length := by
  obtain ⟨i, hi⟩ := List.mem_iff_getElem?.1 ha
  obtain ⟨b, x, h1, _, h2⟩ := r.lookS (List.getElem?_eq_some_iff.1 hi).1
  rw [hi] at h1
  cases h1
  exact (List.getElem?_eq_some_iff.1 h2).1

theorem Sim.disj (r : Sim M h U S) {a : Nat} (ha : a ∈ U) (hb : a ∈ S) : False := by
  obtain ⟨i, hi⟩ := List.mem_iff_getElem?.1 ha
  obtain ⟨_, x, h1, _, tl, h2, _⟩ := r.lookU (List.getElem?_eq_some_iff.1 hi).1
  rw [hi] at h1
  cases h1
  obtain ⟨j, hj⟩ := List.mem_iff_getElem?.1 hb
  obtain ⟨_, s, h3, _, h4⟩ := r.lookS (List.getElem?_eq_some_iff.1 hj).1
  rw [hj] at h3
  cases h3
  rw [h2] at h4
  simp [urnValW, scimVal] at h4

/-- The URN at an address, as the theorems about the text want it. -/
theorem Sim.ptr (r : Sim M h U S) {a : Nat} {x : Obj} (hx : UrnCell h S a x) : UrnPtr h (some a) (some (M.value x)) := by
  obtain ⟨tl, h1, h2, h3⟩ := hx
  refine ⟨a, _, rfl, h1, look S x.scim, tl, rfl, h2, ?_⟩
  cases hs : x.scim with
  | none => simp [Mem.value, hs, ScimAt, look]
  | some k =>
      obtain ⟨b, s, h4, h5, h6⟩ := r.lookS (h3 k hs)
      simp only [Mem.value, hs, Option.bind, h5, ScimAt, look]
      exact ⟨b, h4, h6⟩

theorem UrnCell.frame {a : Nat} {x : Obj} (r : UrnCell h S a x) (hk : h'[a]? = h[a]?) : UrnCell h' S a x := by
  obtain ⟨tl, h1, h2⟩ := r
  exact ⟨tl, hk.trans h1, h2⟩

theorem Sim.frame (r : Sim M h U S) (hk : ∀ c, c < h.length → h'[c]? = h[c]?) : Sim M h' U S where
  lenU := r.lenU
  lenS := r.lenS
  ndU := r.ndU
  ndS := r.ndS
  urn i a x h1 h2 := (r.urn i a x h1 h2).frame (hk _ (r.ltU (List.mem_of_getElem? h1)))
  scim j b s h1 h2 := (hk _ (r.ltS (List.mem_of_getElem? h1))).trans (r.scim j b s h1 h2)

theorem nodup_snoc {l : List Nat} {a : Nat} (hl : l.Nodup) (ha : a ∉ l) : (l ++ [a]).Nodup := by
  rw [List.nodup_append]
  refine ⟨hl, by simp, fun x hx y hy => ?_⟩
  simp at hy
  subst hy
  rintro rfl
  exact ha hx

theorem snoc_cases {α : Type} {l : List α} {x y : α} {i : Nat} (hi : (l ++ [x])[i]? = some y) : l[i]? = some y ∨ i = l.length ∧ y = x := by
  rcases Nat.lt_trichotomy i l.length with h1 | h1 | h1
  · rw [List.getElem?_append_left h1] at hi; exact .inl hi
  · subst h1; simp at hi; exact .inr ⟨rfl, hi.symm⟩
  · rw [List.getElem?_append_right (by omega), List.getElem?_eq_none (by simp; omega)] at hi; cases hi

theorem Sim.newUrn (r : Sim M h U S) {a : Nat} {x : Obj} (ha : a ∉ U) (hx : UrnCell h S a x) : Sim { M with urns := M.urns ++ [x] } h (U ++ [a]) S where
  lenU := by simp [r.lenU]
  lenS := r.lenS
  ndU := nodup_snoc r.ndU ha
  ndS := r.ndS
  urn i b y h1 h2 := by
    rcases snoc_cases h1 with h1 | ⟨rfl, rfl⟩
    · rcases snoc_cases h2 with h2 | ⟨rfl, rfl⟩
      · exact r.urn i b y h1 h2
      · rw [← r.lenU] at h1; simp at h1
    · rw [r.lenU] at h2
      simp at h2
      subst h2
      exact hx
  scim := r.scim

theorem UrnCell.app {a : Nat} {x : Obj} (r : UrnCell h S a x) (l : List Nat) : UrnCell h (S ++ l) a x := by
  obtain ⟨tl, h1, h2, h3⟩ := r
  exact ⟨tl, by rw [look_app h3]; exact h1, h2, fun k hk => by simp; have := h3 k hk; omega⟩

theorem Sim.newScim (r : Sim M h U S) {b : Nat} {s : SCIM} (hb : b ∉ S) (hs : h[b]? = some (.obj (scimVal s))) :
    Sim { M with scims := M.scims ++ [s] } h U (S ++ [b]) where
  lenU := r.lenU
  lenS := by simp [r.lenS]
  ndU := r.ndU
  ndS := nodup_snoc r.ndS hb
  urn i a x h1 h2 := (r.urn i a x h1 h2).app _
  scim j c t h1 h2 := by
    rcases snoc_cases h1 with h1 | ⟨rfl, rfl⟩
    · rcases snoc_cases h2 with h2 | ⟨rfl, rfl⟩
      · exact r.scim j c t h1 h2
      · rw [← r.lenS] at h1; simp at h1
    · rw [r.lenS] at h2
      simp at h2
      subst h2
      exact hs

/-- `Parse` has made a URN. -/
theorem Sim.made (r : Sim M h U S) {a lo : Nat} {u : URN} (hu : UrnWith h lo a u) (hl : ∀ b ∈ S, b < lo) :
    ∃ S', Sim (M.made u).1 h U (S ++ S') ∧ UrnCell h (S ++ S') a (M.made u).2 ∧ ∀ b ∈ S', lo ≤ b := by
  obtain ⟨sp, h1, h2⟩ := hu
  unfold Mem.made
  cases hs : u.scim with
  | none =>
      rw [hs] at h2
      subst h2
      exact ⟨[], by simpa using r, ⟨_, h1, .inl rfl, by simp⟩, by simp⟩
  | some s =>
      rw [hs] at h2
      obtain ⟨b, rfl, h3, h4⟩ := h2
      refine ⟨[b], r.newScim (fun hb => absurd (hl b hb) (by omega)) h3, ⟨_, ?_, .inl rfl, ?_⟩, by simpa using h4⟩
      · have e : look (S ++ [b]) (some M.scims.length) = some b := by simp [look, ← r.lenS]
        rw [e]
        exact h1
      · intro k hk
        cases hk
        simp [r.lenS]

theorem Sim.setUrn (r : Sim M h U S) {i a : Nat} {x : Obj} (hi : U[i]? = some a) (hx : UrnCell h' S a x)
    (hk : ∀ c, c < h.length → c ≠ a → h'[c]? = h[c]?) : Sim { M with urns := M.urns.set i x } h' U S where
  lenU := by simp [r.lenU]
  lenS := r.lenS
  ndU := r.ndU
  ndS := r.ndS
  urn j b y h1 h2 := by
    by_cases hj : j = i
    · subst hj
      rw [hi] at h1
      cases h1
      simp only [List.getElem?_set_self (show j < M.urns.length by rw [← r.lenU]; exact (List.getElem?_eq_some_iff.1 hi).1), Option.some.injEq] at h2
      subst h2
      exact hx
    · simp only [List.getElem?_set_ne (Ne.symm hj)] at h2
      refine (r.urn j b y h1 h2).frame (hk b (r.ltU (List.mem_of_getElem? h1)) ?_)
      rintro rfl
      exact hj ((List.getElem?_inj (List.getElem?_eq_some_iff.1 h1).1 r.ndU).1 (h1.trans hi.symm))
  scim j b s h1 h2 := by
    have h3 := r.scim j b s h1 h2
    rw [hk b (List.getElem?_eq_some_iff.1 h3).1 (fun e => r.disj (List.mem_of_getElem? hi) (e ▸ List.mem_of_getElem? h1))]
    exact h3

theorem Sim.setScim (r : Sim M h U S) {i b : Nat} {s : SCIM} (hi : S[i]? = some b) (hs : h'[b]? = some (.obj (scimVal s)))
    (hk : ∀ c, c < h.length → c ≠ b → h'[c]? = h[c]?) : Sim { M with scims := M.scims.set i s } h' U S where
  lenU := r.lenU
  lenS := by simp [r.lenS]
  ndU := r.ndU
  ndS := r.ndS
  urn j a x h1 h2 := (r.urn j a x h1 h2).frame
    (hk a (r.ltU (List.mem_of_getElem? h1)) (fun e => r.disj (List.mem_of_getElem? h1) (e ▸ List.mem_of_getElem? hi)))
  scim j c t h1 h2 := by
    by_cases hj : j = i
    · subst hj
      rw [hi] at h1
      cases h1
      simp only [List.getElem?_set_self (show j < M.scims.length by rw [← r.lenS]; exact (List.getElem?_eq_some_iff.1 hi).1), Option.some.injEq] at h2
      subst h2
      exact hs
    · simp only [List.getElem?_set_ne (Ne.symm hj)] at h2
      have h3 := r.scim j c t h1 h2
      rw [hk c (List.getElem?_eq_some_iff.1 h3).1 ?_]
      · exact h3
      · rintro rfl
        exact hj ((List.getElem?_inj (List.getElem?_eq_some_iff.1 h1).1 r.ndS).1 (h1.trans hi.symm))

/-- `*p = *value` in `UnmarshalJSON`. -/
theorem Sim.over (r : Sim M h U S) {i a lo : Nat} {u : URN} (hi : U[i]? = some a) (hu : UrnWith h' lo a u) (hl : h.length ≤ lo)
    (hk : ∀ c, c < h.length → c ≠ a → h'[c]? = h[c]?) :
    ∃ S', Sim { (M.made u).1 with urns := (M.made u).1.urns.set i (M.made u).2 } h' U (S ++ S') ∧ ∀ b ∈ S', lo ≤ b := by
  have hal := r.ltU (List.mem_of_getElem? hi)
  have hS : ∀ b ∈ S, b < lo := fun b hb => Nat.lt_of_lt_of_le (r.ltS hb) hl
  obtain ⟨sp, h1, h2⟩ := hu
  have hal' : a < h'.length := (List.getElem?_eq_some_iff.1 h1).1
  have r1 : Sim M (h'.set a (h[a]'hal)) U S := r.frame fun c hc => by
    by_cases hca : c = a
    · subst hca
      rw [List.getElem?_set_self hal', List.getElem?_eq_getElem]
    · rw [List.getElem?_set_ne (Ne.symm hca)]
      exact hk c hc hca
  unfold Mem.made
  cases hs : u.scim with
  | none =>
      rw [hs] at h2
      subst h2
      refine ⟨[], ?_, by simp⟩
      simp only [List.append_nil]
      refine r1.setUrn hi ⟨_, h1, .inl rfl, by simp⟩ fun c _ hc => ?_
      rw [List.getElem?_set_ne (Ne.symm hc)]
  | some s =>
      rw [hs] at h2
      obtain ⟨b, rfl, h3, h4⟩ := h2
      refine ⟨[b], ?_, by simpa using h4⟩
      have hb : b ∉ S := fun hb => absurd (hS b hb) (by omega)
      have r2 := r1.newScim (s := s) hb (by rw [List.getElem?_set_ne (by omega)]; exact h3)
      refine r2.setUrn hi ⟨_, ?_, .inl rfl, ?_⟩ fun c _ hc => ?_
      · have e : look (S ++ [b]) (some M.scims.length) = some b := by simp [look, ← r.lenS]
        rw [e]
        exact h1
      · intro k hk
        cases hk
        simp [r.lenS]
      · rw [List.getElem?_set_ne (Ne.symm hc)]

end
end Urn.GoLang
