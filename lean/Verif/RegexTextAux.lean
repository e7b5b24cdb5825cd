import Verif.RegexText
/-!
# The expressions of the tools; places and texts of groups
-/
set_option autoImplicit false
namespace Urn.Regex
open Tools

/-! ## Expressions that match the same -/

/-- Two expressions match in the same ways. -/
def Re.Same (a b : Re) : Prop := ∀ prev s, a.run prev s = b.run prev s

namespace Re.Same
theorem refl (a : Re) : Re.Same a a := fun _ _ => rfl
theorem trans {a b c : Re} (h : Re.Same a b) (h' : Re.Same b c) : Re.Same a c := fun p s => (h p s).trans (h' p s)
theorem symm {a b : Re} (h : Re.Same a b) : Re.Same b a := fun p s => (h p s).symm
theorem seq {a a' b b' : Re} (h : Re.Same a a') (h' : Re.Same b b') : Re.Same (.seq a b) (.seq a' b') := by
  intro p s
  simp only [Re.run]
  rw [h p s]
  congr 1
  funext x
  rw [h']
theorem cap {a a' : Re} (h : Re.Same a a') : Re.Same (.cap a) (.cap a') := by
  intro p s; simp only [Re.run]; rw [h p s]
theorem assoc (a b c : Re) : Re.Same (.seq (.seq a b) c) (.seq a (.seq b c)) := by
  intro p s
  simp only [Re.run, List.flatMap_assoc, List.flatMap_map, List.map_flatMap, List.map_map]
  congr 1
  funext x
  congr 1
  funext y
  have : (x.text ++ y.text).getLast?.or p = y.text.getLast?.or (x.text.getLast?.or p) := by
    rw [List.getLast?_append, Option.or_assoc]
  rw [this]
  congr 1
  funext z
  simp [Function.comp]
end Re.Same

theorem find_same {a b : Re} (h : Re.Same a b) (prev : Option UInt8) (s : Bytes) : a.find prev s = b.find prev s := by
  induction s generalizing prev with
  | nil => rw [Re.find, Re.find, h]
  | cons c t ih => rw [Re.find, Re.find, h, ih]

theorem findAll_same {a b : Re} (h : Re.Same a b) (n : Nat) (prev : Option UInt8) (s : Bytes) :
    a.findAll n prev s = b.findAll n prev s := by
  induction n generalizing prev s with
  | zero => rfl
  | succ n ih => simp only [Re.findAll, find_same h, ih]

/-! ## The expression of removecomments -/

/-- tools/removecomments/removecomments.go:23, with each character of the literal by itself -/
def commentRe : Re :=
  .seq .bol (.seq (.star space) (.seq (.cls fun c => c == 47) (.seq (.cls fun c => c == 47) (.seq (.cls fun c => c == 108)
    (.seq (.cls fun c => c == 105) (.seq (.cls fun c => c == 110) (.seq (.cls fun c => c == 101) (.seq (.star dot) (.seq .eol
      (.seq (.opt fun c => c == 13) (.opt fun c => c == 10)))))))))))

theorem comment_same : Re.Same commentRe commentLineRegex := by
  refine .seq (.refl _) (.seq (.refl _) ?_)
  refine .trans ?_ (.symm (.assoc _ _ _))
  refine .seq (.refl _) ?_
  refine .trans ?_ (.symm (.assoc _ _ _))
  refine .seq (.refl _) ?_
  refine .trans ?_ (.symm (.assoc _ _ _))
  refine .seq (.refl _) ?_
  refine .trans ?_ (.symm (.assoc _ _ _))
  refine .seq (.refl _) ?_
  refine .trans ?_ (.symm (.assoc _ _ _))
  exact .refl _

/-! ## Places -/

/-- The text between two places. -/
def cut (str : Bytes) (g : Nat × Nat) : Bytes := (str.drop g.1).take (g.2 - g.1)

/-- A match with the texts of its groups. -/
def Place.found (str : Bytes) (x : Place) : Found := ⟨x.text, x.rest, x.groups.map (cut str)⟩

theorem run_split {r : Re} {o : Nat} {prev : Option UInt8} {s : Bytes} :
    ∀ x ∈ r.runI o prev s, x.text ++ x.rest = s ∧ ∀ g ∈ x.groups, o ≤ g.1 ∧ g.1 ≤ g.2 ∧ g.2 ≤ o + x.text.length := by
  induction r generalizing o prev s with
  | cls p =>
    intro x hx
    cases s with
    | nil => simp [Re.runI] at hx
    | cons c t => 
      simp only [Re.runI] at hx
      split at hx <;> simp at hx
      subst hx; simp
  | star p =>
    intro x hx
    simp only [Re.runI, List.mem_map] at hx
    obtain ⟨y, hy, rfl⟩ := hx
    refine ⟨?_, by simp⟩
    induction s generalizing y with
    | nil => simp [starRuns] at hy; subst hy; rfl
    | cons c t ih =>
      simp only [starRuns] at hy
      split at hy
      · simp only [List.mem_append, List.mem_map, List.mem_singleton] at hy
        rcases hy with ⟨z, hz, rfl⟩ | rfl
        · simp [ih z hz]
        · rfl
      · simp at hy; subst hy; rfl
  | opt p =>
    intro x hx
    cases s with
    | nil => simp [Re.runI] at hx; subst hx; simp
    | cons c t =>
      simp only [Re.runI] at hx
      split at hx
      · simp at hx; rcases hx with rfl | rfl <;> simp
      · simp at hx; subst hx; simp
  | bol =>
    intro x hx
    simp only [Re.runI] at hx
    split at hx <;> simp at hx
    subst hx; simp
  | eol =>
    intro x hx
    simp only [Re.runI] at hx
    split at hx <;> simp at hx
    subst hx; simp
  | seq a b iha ihb =>
    intro z hz
    simp only [Re.runI, List.mem_flatMap, List.mem_map] at hz
    obtain ⟨x, hx, y, hy, rfl⟩ := hz
    obtain ⟨h1, h2⟩ := iha x hx
    obtain ⟨h3, h4⟩ := ihb y hy
    refine ⟨by simp [h3, h1], ?_⟩
    intro g hg
    rw [List.mem_append] at hg
    simp only [List.length_append]
    rcases hg with hg | hg
    · have := h2 g hg; omega
    · have := h4 g hg; omega
  | cap a ih =>
    intro z hz
    simp only [Re.runI, List.mem_map] at hz
    obtain ⟨x, hx, rfl⟩ := hz
    obtain ⟨h1, h2⟩ := ih x hx
    refine ⟨h1, ?_⟩
    intro g hg
    simp only [List.mem_cons] at hg
    rcases hg with rfl | hg
    · simp
    · exact h2 g hg

/-- The matcher with places finds what the matcher with texts finds. -/
theorem runI_eq {r : Re} {o : Nat} {prev : Option UInt8} {s str : Bytes} (hs : str.drop o = s) :
    (r.runI o prev s).map (Place.found str) = r.run prev s := by
  induction r generalizing o prev s with
  | cls p =>
    cases s with
    | nil => rfl
    | cons c t => simp only [Re.runI, Re.run]; split <;> rfl
  | star p => simp only [Re.runI, Re.run, List.map_map]; rfl
  | opt p =>
    cases s with
    | nil => rfl
    | cons c t => simp only [Re.runI, Re.run]; split <;> rfl
  | bol => simp only [Re.runI, Re.run]; split <;> rfl
  | eol => simp only [Re.runI, Re.run]; split <;> rfl
  | seq a b iha ihb =>
    simp only [Re.runI, Re.run, List.map_flatMap, List.map_map]
    rw [← iha hs, List.flatMap_map]
    rw [List.flatMap_def, List.flatMap_def]
    congr 1
    apply List.map_congr_left
    intro x hx
    have hsp := (run_split x hx).1
    have : str.drop (o + x.text.length) = x.rest := by
      rw [← List.drop_drop, hs, ← hsp]; simp
    simp only [Place.found]
    rw [← ihb this, List.map_map]
    apply List.map_congr_left
    intro y _
    simp [Function.comp, Place.found]
  | cap a ih =>
    simp only [Re.runI, Re.run, List.map_map]
    rw [← ih hs, List.map_map]
    apply List.map_congr_left
    intro x hx
    have hsp := (run_split x hx).1
    simp only [Function.comp, Place.found, List.map_cons, cut]
    congr 1
    rw [hs, ← hsp]; simp

theorem findI_eq {r : Re} {o : Nat} {prev : Option UInt8} {s str : Bytes} (hs : str.drop o = s) :
    match r.findI o prev s with
    | none => r.find prev s = none
    | some (i, x) => ∃ skip, r.find prev s = some (skip, x.found str) ∧ i = o + skip.length ∧ skip ++ x.text ++ x.rest = s ∧
        ∀ g ∈ x.groups, i ≤ g.1 ∧ g.1 ≤ g.2 ∧ g.2 ≤ i + x.text.length := by
  induction s generalizing o prev with
  | nil =>
    rw [Re.findI, Re.find, ← runI_eq (r := r) (prev := prev) hs]
    cases h : r.runI o prev [] with
    | nil => simp
    | cons x xs =>
      have := run_split (r := r) (o := o) (prev := prev) (s := []) x (by rw [h]; simp)
      exact ⟨[], by simp, by simp, by simpa using this.1, this.2⟩
  | cons c t ih =>
    rw [Re.findI, Re.find, ← runI_eq (r := r) (prev := prev) hs]
    cases h : r.runI o prev (c :: t) with
    | nil =>
      have hd : str.drop (o + 1) = t := by rw [← List.drop_drop, hs]; rfl
      have := ih (prev := some c) hd
      simp only [List.map_nil, List.head?_nil]
      cases hf : r.findI (o + 1) (some c) t with
      | none => rw [hf] at this; simp only at this ⊢; rw [this]; rfl
      | some y =>
        rw [hf] at this
        obtain ⟨skip, h1, h2, h3, h4⟩ := this
        refine ⟨c :: skip, by rw [h1]; rfl, by simp; omega, by simpa using h3, h4⟩
    | cons x xs =>
      have := run_split (r := r) (o := o) (prev := prev) (s := c :: t) x (by rw [h]; simp)
      exact ⟨[], by simp, by simp, by simpa using this.1, this.2⟩

end Urn.Regex
