import Verif.Tools
import Verif.SpecTools
/-!
# Lemmas on regular expression matching
-/
set_option autoImplicit false
namespace Urn.Regex

theorem mem_starRuns {p : UInt8 → Bool} {s m r : Bytes} : (m, r) ∈ starRuns p s ↔ s = m ++ r ∧ ∀ c ∈ m, p c = true := by
  induction s generalizing m r with
  | nil =>
    simp only [starRuns, List.mem_singleton, Prod.mk.injEq]
    constructor
    · rintro ⟨rfl, rfl⟩; simp
    · rintro ⟨h, _⟩
      have := List.append_eq_nil_iff.mp h.symm
      exact this
  | cons c t ih =>
    simp only [starRuns]
    by_cases hc : p c = true
    · rw [if_pos hc]
      simp only [List.mem_append, List.mem_map, List.mem_singleton, Prod.mk.injEq]
      constructor
      · rintro (⟨⟨m', r'⟩, h, rfl, rfl⟩ | ⟨rfl, rfl⟩)
        · obtain ⟨h1, h2⟩ := ih.mp h
          refine ⟨by simp [h1], ?_⟩
          intro d hd
          rcases List.mem_cons.mp hd with rfl | hd
          · exact hc
          · exact h2 d hd
        · simp
      · rintro ⟨h1, h2⟩
        cases m with
        | nil => exact .inr ⟨rfl, h1.symm⟩
        | cons d m =>
          simp only [List.cons_append, List.cons.injEq] at h1
          exact .inl ⟨(m, r), ih.mpr ⟨h1.2, fun e he => h2 e (by simp [he])⟩, by simp [h1.1], rfl⟩
    · rw [if_neg hc]
      simp only [List.mem_singleton, Prod.mk.injEq]
      constructor
      · rintro ⟨rfl, rfl⟩; simp
      · rintro ⟨h1, h2⟩
        cases m with
        | nil => exact ⟨rfl, h1.symm⟩
        | cons d m =>
          simp only [List.cons_append, List.cons.injEq] at h1
          exact absurd (h2 c (by simp [h1.1])) hc

theorem starRuns_head {p : UInt8 → Bool} (s : Bytes) : (starRuns p s).head? = some (s.takeWhile p, s.dropWhile p) := by
  induction s with
  | nil => rfl
  | cons c t ih =>
    simp only [starRuns]
    by_cases hc : p c = true
    · rw [if_pos hc]
      rw [List.head?_append, List.head?_map, ih]
      simp [hc]
    · rw [if_neg hc]
      simp [hc]

theorem starRuns_sorted {p : UInt8 → Bool} (s : Bytes) : (starRuns p s).Pairwise fun x y => y.1.length < x.1.length := by
  induction s with
  | nil => simp [starRuns]
  | cons c t ih =>
    simp only [starRuns]
    by_cases hc : p c = true
    · rw [if_pos hc, List.pairwise_append]
      refine ⟨?_, by simp, ?_⟩
      · rw [List.pairwise_map]
        refine ih.imp ?_
        intro a b h
        simpa using h
      · intro a ha b hb
        obtain ⟨x, _, rfl⟩ := List.mem_map.mp ha
        rw [List.mem_singleton.mp hb]
        simp
    · rw [if_neg hc]; simp

/-- Only the longest run matters if what follows cannot begin with a character of the class. -/
theorem starRuns_flatMap {β : Type} {p : UInt8 → Bool} {f : Bytes × Bytes → List β} (s : Bytes)
    (hf : ∀ m c r, p c = true → f (m, c :: r) = []) : (starRuns p s).flatMap f = f (s.takeWhile p, s.dropWhile p) := by
  induction s generalizing f with
  | nil => simp [starRuns]
  | cons c t ih =>
    simp only [starRuns]
    by_cases hc : p c = true
    · rw [if_pos hc, List.flatMap_append, List.flatMap_map]
      rw [ih (f := fun x => f (c :: x.1, x.2)) (fun m d r hd => hf _ d r hd)]
      simp [hc, hf]
    · rw [if_neg hc]
      simp [hc]

theorem flatMap_head {α β : Type} {f : α → List β} {l : List α} {x : β} (h : (l.flatMap f).head? = some x) :
    ∃ pre a post, l = pre ++ a :: post ∧ (∀ b ∈ pre, f b = []) ∧ (f a).head? = some x := by
  induction l with
  | nil => simp at h
  | cons a l ih =>
    rw [List.flatMap_cons] at h
    by_cases ha : f a = []
    · rw [ha, List.nil_append] at h
      obtain ⟨pre, b, post, rfl, h1, h2⟩ := ih h
      refine ⟨a :: pre, b, post, rfl, ?_, h2⟩
      intro c hc
      rcases List.mem_cons.mp hc with rfl | hc
      · exact ha
      · exact h1 c hc
    · refine ⟨[], a, l, rfl, by simp, ?_⟩
      rw [List.head?_append] at h
      cases hfa : f a with
      | nil => exact absurd hfa ha
      | cons y ys => simpa [hfa] using h

theorem head_none {α : Type} {l : List α} : l.head? = none ↔ l = [] := by cases l <;> simp

/-- Matching a literal. -/
theorem run_text {w : Bytes} (hw : w ≠ []) (prev : Option UInt8) (s : Bytes) :
    (Re.text w).run prev s = if w.isPrefixOf s then [⟨w, s.drop w.length, []⟩] else [] := by
  induction w generalizing prev s with
  | nil => exact absurd rfl hw
  | cons c w ih =>
    cases w with
    | nil =>
      cases s with
      | nil => simp [Re.text, Re.run, List.isPrefixOf]
      | cons d s =>
        by_cases hd : d = c
        · subst hd; simp [Re.text, Re.run, List.isPrefixOf]
        · have : ¬ c = d := fun h => hd h.symm
          simp [Re.text, Re.run, List.isPrefixOf, hd, this]
    | cons c' w =>
      rw [Re.text, Re.run]
      · cases s with
        | nil => simp [Re.run, List.isPrefixOf]
        | cons d s =>
          by_cases hd : d = c
          · subst hd
            simp only [Re.run, beq_self_eq_true, if_true, List.flatMap_cons, List.flatMap_nil, List.append_nil]
            rw [ih (by simp)]
            by_cases h : (c' :: w).isPrefixOf s
            · rw [if_pos h, if_pos (by simpa [List.isPrefixOf] using h)]; simp
            · rw [if_neg h, if_neg (by simpa [List.isPrefixOf] using h)]; simp
          · have : ¬ c = d := fun h => hd h.symm
            simp [Re.run, List.isPrefixOf, hd, this]
      · simp

theorem run_rest {r : Re} {prev : Option UInt8} {s : Bytes} {x : Found} (h : x ∈ r.run prev s) : s = x.text ++ x.rest := by
  induction r generalizing prev s x with
  | cls p =>
    cases s with
    | nil => simp [Re.run] at h
    | cons c t =>
      by_cases hc : p c = true
      · simp [Re.run, hc] at h; subst h; rfl
      · simp [Re.run, hc] at h
  | star p =>
    obtain ⟨⟨m, t⟩, h1, rfl⟩ := List.mem_map.mp h
    exact (mem_starRuns.mp h1).1
  | opt p =>
    cases s with
    | nil => simp [Re.run] at h; subst h; rfl
    | cons c t =>
      by_cases hc : p c = true
      · simp [Re.run, hc] at h
        rcases h with rfl | rfl <;> rfl
      · simp [Re.run, hc] at h; subst h; rfl
  | bol =>
    simp only [Re.run] at h
    split at h
    · rw [List.mem_singleton.mp h]; rfl
    · simp at h
  | eol =>
    simp only [Re.run] at h
    split at h
    · rw [List.mem_singleton.mp h]; rfl
    · simp at h
  | seq a b iha ihb =>
    simp only [Re.run, List.mem_flatMap, List.mem_map] at h
    obtain ⟨y, hy, z, hz, rfl⟩ := h
    rw [iha hy, ihb hz]; simp
  | cap a ih =>
    simp only [Re.run, List.mem_map] at h
    obtain ⟨y, hy, rfl⟩ := h
    exact (ih hy : s = y.text ++ y.rest)

theorem find_eq (r : Re) (prev : Option UInt8) (s : Bytes) : r.find prev s =
    match (r.run prev s).head? with
    | some x => some ([], x)
    | none =>
        match s with
        | [] => none
        | c :: t => (r.find (some c) t).map fun y => (c :: y.1, y.2) := by
  rw [Re.find.eq_def]; cases s <;> cases (r.run prev _).head? <;> rfl

theorem find_split {r : Re} {prev : Option UInt8} {s skip : Bytes} {x : Found} (h : r.find prev s = some (skip, x)) :
    s = skip ++ x.text ++ x.rest := by
  induction s generalizing prev skip x with
  | nil =>
    rw [find_eq] at h
    cases h1 : (r.run prev []).head? with
    | none => simp [h1] at h
    | some y =>
      simp only [h1, Option.some.injEq, Prod.mk.injEq] at h
      obtain ⟨rfl, rfl⟩ := h
      exact run_rest (List.mem_of_head? h1)
  | cons c t ih =>
    rw [find_eq] at h
    cases h1 : (r.run prev (c :: t)).head? with
    | none =>
      simp only [h1, Option.map_eq_some_iff] at h
      obtain ⟨⟨sk, y⟩, h2, h3⟩ := h
      simp only [Prod.mk.injEq] at h3
      obtain ⟨rfl, rfl⟩ := h3
      rw [ih h2]; simp
    | some y =>
      simp only [h1, Option.some.injEq, Prod.mk.injEq] at h
      obtain ⟨rfl, rfl⟩ := h
      exact run_rest (List.mem_of_head? h1)

/-- With enough fuel the result does not depend on it. -/
theorem findAll_fuel {r : Re} {f g : Nat} {prev : Option UInt8} {s : Bytes} (hf : s.length < f) (hg : s.length < g) :
    r.findAll f prev s = r.findAll g prev s := by
  induction f generalizing g prev s with
  | zero => exact absurd hf (by omega)
  | succ f ih =>
    cases g with
    | zero => exact absurd hg (by omega)
    | succ g =>
      simp only [Re.findAll]
      cases h : r.find prev s with
      | none => rfl
      | some y =>
        obtain ⟨skip, x⟩ := y
        simp only
        by_cases hx : x.text = []
        · simp [hx]
        · have e := congrArg List.length (find_split h)
          simp only [List.length_append] at e
          have : 0 < x.text.length := List.length_pos_iff.mpr hx
          rw [if_neg hx, if_neg hx, ih (g := g) (by omega) (by omega)]

end Urn.Regex
