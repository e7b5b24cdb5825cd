import Verif.RegexAux
/-!
# removecomments: matches and lines
-/
set_option autoImplicit false
namespace Urn.Tools
open Regex SpecTools

/-- What the expression matches at the beginning of a line: the text matched and the rest. -/
def cmatch (s : Bytes) : Option (Bytes × Bytes) :=
  if (lit "//line").isPrefixOf (s.dropWhile space) then
    let b := (s.dropWhile space).drop 6
    match b.dropWhile dot with
    | [] => some (s.takeWhile space ++ lit "//line" ++ b.takeWhile dot, [])
    | c :: r => some (s.takeWhile space ++ lit "//line" ++ b.takeWhile dot ++ [c], r)
  else none

theorem run_star_seq (p : UInt8 → Bool) (b : Re) (prev : Option UInt8) (s : Bytes)
    (hb : ∀ prev c r, p c = true → b.run prev (c :: r) = []) :
    (Re.seq (.star p) b).run prev s =
      (b.run ((s.takeWhile p).getLast?.or prev) (s.dropWhile p)).map fun y => ⟨s.takeWhile p ++ y.text, y.rest, y.groups⟩ := by
  rw [Re.run, Re.run, List.flatMap_map, starRuns_flatMap]
  · simp
  · intro m c r hc
    simp [hb _ c r hc]

theorem dropWhile_dot (s : Bytes) : s.dropWhile dot = [] ∨ ∃ r, s.dropWhile dot = 10 :: r := by
  induction s with
  | nil => simp
  | cons c s ih =>
    by_cases hc : c = 10
    · subst hc; exact .inr ⟨s, rfl⟩
    · rw [List.dropWhile_cons, if_pos (by simp [dot, hc])]; exact ih

theorem run_comment_bol {prev : Option UInt8} (hp : prev = none ∨ prev = some 10) (s : Bytes) :
    (commentLineRegex.run prev s).head? = (cmatch s).map fun x => ⟨x.1, x.2, []⟩ := by
  have hsl : ∀ (b : Re) (prev : Option UInt8) (c : UInt8) (r : Bytes), space c = true →
      (Re.seq (Re.text (lit "//line")) b).run prev (c :: r) = [] := by
    intro b prev c r hc
    rw [Re.run, run_text (by decide)]
    have : ¬ (47 : UInt8) = c := by rintro rfl; exact absurd hc (by decide)
    rw [if_neg (by simp [lit, List.isPrefixOf, this])]
    rfl
  have heol : ∀ (b : Re) (prev : Option UInt8) (c : UInt8) (r : Bytes), dot c = true → (Re.seq .eol b).run prev (c :: r) = [] := by
    intro b prev c r hc
    have : c ≠ 10 := by rintro rfl; exact absurd hc (by decide)
    simp [Re.run, this]
  rw [commentLineRegex, Re.run]
  have e1 : Re.bol.run prev s = [⟨[], s, []⟩] := by simp only [Re.run]; rw [if_pos hp]
  rw [e1]
  simp only [List.flatMap_cons, List.flatMap_nil, List.append_nil, List.nil_append]
  rw [run_star_seq _ _ _ _ fun prev c r hc => hsl _ prev c r hc]
  rw [Re.run, run_text (by decide)]
  unfold cmatch
  by_cases hpre : (lit "//line").isPrefixOf (s.dropWhile space) = true
  · rw [if_pos hpre, if_pos hpre]
    simp only [List.flatMap_cons, List.flatMap_nil, List.append_nil]
    have e6 : (lit "//line").length = 6 := by decide
    rw [e6]
    generalize (s.dropWhile space).drop 6 = b
    rw [run_star_seq _ _ _ _ fun prev c r hc => heol _ prev c r hc]
    rcases dropWhile_dot b with h | ⟨r, h⟩
    · rw [h]; simp [Re.run]
    · rw [h]; simp [Re.run]
  · rw [if_neg hpre, if_neg hpre]; simp

theorem run_comment_mid {c : UInt8} (hc : c ≠ 10) (s : Bytes) : commentLineRegex.run (some c) s = [] := by
  rw [commentLineRegex, Re.run]
  have : Re.bol.run (some c) s = [] := by simp [Re.run, hc]
  rw [this]; rfl

/-! ## Lines -/

theorem lines_flatten (t : Bytes) : (lines t).flatten = t := by
  induction t with
  | nil => rfl
  | cons c t ih =>
    rw [lines]
    split
    · rename_i h; subst h; simp [ih]
    · cases h : lines t with
      | nil => rw [h] at ih; simp at ih; simp [← ih]
      | cons l ls => rw [h] at ih; simp at ih; simp [← ih]

/-- Texts that are the lines of something. -/
inductive IsLines : List Bytes → Prop where
  | nil : IsLines []
  | last {l : Bytes} : l ≠ [] → 10 ∉ l → IsLines [l]
  | cons {l : Bytes} {ls : List Bytes} : 10 ∉ l → IsLines ls → IsLines ((l ++ [10]) :: ls)

theorem lines_isLines (t : Bytes) : IsLines (lines t) := by
  induction t with
  | nil => exact .nil
  | cons c t ih =>
    rw [lines]
    split
    · exact .cons (l := []) (by simp) ih
    · rename_i hc
      have hc' : ¬ (10 : UInt8) = c := fun h => hc h.symm
      generalize lines t = L at ih
      cases ih with
      | nil => exact .last (by simp) (by simp [hc'])
      | last h1 h2 => exact .last (by simp) (by simp [hc', h2])
      | @cons l ls h1 h2 => exact .cons (l := c :: l) (by simp [hc', h1]) h2

theorem lines_line {l : Bytes} (h : 10 ∉ l) (t : Bytes) : lines (l ++ 10 :: t) = (l ++ [10]) :: lines t := by
  induction l with
  | nil => simp [lines]
  | cons c l ih =>
    have hc : c ≠ 10 := fun e => h (by simp [e])
    have hl : 10 ∉ l := fun e => h (by simp [e])
    rw [List.cons_append, lines, if_neg hc, ih hl]
    rfl

theorem lines_last {l : Bytes} (h1 : l ≠ []) (h2 : 10 ∉ l) : lines l = [l] := by
  induction l with
  | nil => exact absurd rfl h1
  | cons c l ih =>
    have hc : c ≠ 10 := fun e => h2 (by simp [e])
    have hl : 10 ∉ l := fun e => h2 (by simp [e])
    rw [lines, if_neg hc]
    by_cases he : l = []
    · subst he; rfl
    · rw [ih he hl]

/-- Lines put together are the lines of the whole. -/
theorem lines_of {L : List Bytes} (h : IsLines L) : lines L.flatten = L := by
  induction h with
  | nil => rfl
  | last h1 h2 => simpa using lines_last h1 h2
  | cons h1 _ ih => simp only [List.flatten_cons, List.append_assoc, List.singleton_append]; rw [lines_line h1, ih]

/-! ## Where the match ends -/

theorem space_iff (c : UInt8) : space c = (isIndent c || c == 10) := by
  simp only [space, isIndent]
  cases c == 9 <;> cases c == 10 <;> cases c == 12 <;> cases c == 13 <;> cases c == 32 <;> rfl

theorem dropWhile_all {p : UInt8 → Bool} {l : Bytes} (h : ∀ c ∈ l, p c = true) (t : Bytes) : (l ++ t).dropWhile p = t.dropWhile p := by
  induction l with
  | nil => rfl
  | cons c l ih => simp only [List.cons_append]; rw [List.dropWhile_cons, if_pos (h c (by simp)), ih fun d hd => h d (by simp [hd])]

theorem takeWhile_all {p : UInt8 → Bool} {l : Bytes} (h : ∀ c ∈ l, p c = true) (t : Bytes) : (l ++ t).takeWhile p = l ++ t.takeWhile p := by
  induction l with
  | nil => rfl
  | cons c l ih => simp only [List.cons_append]; rw [List.takeWhile_cons, if_pos (h c (by simp)), ih fun d hd => h d (by simp [hd])]

theorem blank_iff {l : Bytes} : isBlank l = true ↔ ∀ c ∈ l, space c = true := by
  rw [isBlank, List.all_eq_true]
  simp only [space_iff]

/-- In a line that is not blank, white space ends within the line. -/
theorem dropWhile_line {l : Bytes} (hn : 10 ∉ l) (hb : isBlank l = false) (t : Bytes) :
    (l ++ t).dropWhile space = l.dropWhile isIndent ++ t ∧ (l ++ t).takeWhile space = l.takeWhile isIndent ∧
      (l ++ t).dropWhile isIndent = l.dropWhile isIndent ++ t := by
  induction l with
  | nil => exact absurd hb (by decide)
  | cons c l ih =>
    have h10 : c ≠ 10 := fun e => hn (by simp [e])
    by_cases hc : isIndent c = true
    · have hs : space c = true := by rw [space_iff, hc]; rfl
      have hb' : isBlank l = false := by
        rw [isBlank, List.all_cons] at hb
        simpa only [isBlank, hc, Bool.true_or, Bool.true_and] using hb
      have := ih (fun h => hn (by simp [h])) hb'
      simp only [List.cons_append, List.dropWhile_cons, List.takeWhile_cons, hs, hc, if_true, this]
      exact ⟨trivial, trivial, trivial⟩
    · have hs : space c = false := by rw [space_iff]; simp [hc, h10]
      simp [hs, hc]

/-- What is matched at the beginning of some lines, and the lines that follow. -/
def eat : List Bytes → Option (Bytes × List Bytes)
  | [] => none
  | l :: ls =>
      if isComment l then some (l, ls)
      else if isBlank l then (eat ls).map fun x => (l ++ x.1, x.2)
      else none

theorem prefix_line {w : Bytes} (hw : 10 ∉ w) (k t : Bytes) : w.isPrefixOf (k ++ 10 :: t) = w.isPrefixOf k := by
  induction w generalizing k with
  | nil => simp [List.isPrefixOf]
  | cons c w ih =>
    have hc : ¬ c = 10 := fun e => hw (by simp [e])
    cases k with
    | nil => simp [List.isPrefixOf, hc]
    | cons d k => simp only [List.cons_append, List.isPrefixOf]; rw [ih fun h => hw (by simp [h])]

theorem blank_not_comment {l : Bytes} (h : isBlank l = true) : isComment l = false := by
  rw [isComment]
  rw [isBlank] at h
  induction l with
  | nil => decide
  | cons c l ih =>
    rw [List.all_cons, Bool.and_eq_true] at h
    rw [List.dropWhile_cons]
    split
    · exact ih h.2
    · rename_i hc
      have : c = 10 := by simpa [hc] using h.1
      subst this
      rfl

theorem blank_append {l : Bytes} : isBlank (l ++ [10]) = isBlank l := by simp [isBlank]

theorem blank_drop {l : Bytes} (h : isBlank l = true) (t : Bytes) :
    (l ++ t).dropWhile space = t.dropWhile space ∧ (l ++ t).takeWhile space = l ++ t.takeWhile space :=
  ⟨dropWhile_all (blank_iff.mp h) t, takeWhile_all (blank_iff.mp h) t⟩

theorem cmatch_blank {l : Bytes} (h : isBlank l = true) (t : Bytes) :
    cmatch (l ++ t) = (cmatch t).map fun x => (l ++ x.1, x.2) := by
  unfold cmatch
  rw [(blank_drop h t).1, (blank_drop h t).2]
  split
  · dsimp only
    split <;> simp
  · rfl

theorem takeWhile_dot {b : Bytes} (h : 10 ∉ b) : b.dropWhile dot = [] ∧ b.takeWhile dot = b ∧
    ∀ t, (b ++ 10 :: t).dropWhile dot = 10 :: t ∧ (b ++ 10 :: t).takeWhile dot = b := by
  have hd : ∀ c ∈ b, dot c = true := by
    intro c hc
    have : c ≠ 10 := by rintro rfl; exact h hc
    simp [dot, this]
  refine ⟨?_, ?_, ?_⟩
  · simpa using dropWhile_all hd []
  · simpa using takeWhile_all hd []
  · intro t
    rw [dropWhile_all hd, takeWhile_all hd]
    simp [dot]

theorem not_mem_dropWhile {l : Bytes} (h : 10 ∉ l) (p : UInt8 → Bool) : 10 ∉ l.dropWhile p :=
  fun hm => h ((List.dropWhile_suffix p).subset hm)

theorem cmatch_line {l : Bytes} (hn : 10 ∉ l) (hb : isBlank l = false) :
    cmatch l = (if isComment l then some (l, []) else none) ∧
    ∀ t, cmatch (l ++ 10 :: t) = if isComment (l ++ [10]) then some (l ++ [10], t) else none := by
  have h1 := dropWhile_line hn hb []
  rw [List.append_nil, List.append_nil] at h1
  have hk := not_mem_dropWhile hn isIndent
  have hlit : (10 : UInt8) ∉ lit "//line" := by decide
  have split6 : ∀ k : Bytes, (lit "//line").isPrefixOf k = true → lit "//line" ++ k.drop 6 = k := by
    intro k hk
    obtain ⟨r, rfl⟩ := List.isPrefixOf_iff_prefix.mp hk
    rfl
  have hl : l.takeWhile isIndent ++ l.dropWhile isIndent = l := List.takeWhile_append_dropWhile
  constructor
  · unfold cmatch
    rw [isComment, h1.1, h1.2.1]
    split
    · rename_i hc
      have hb6 : 10 ∉ (l.dropWhile isIndent).drop 6 := fun h => hk (List.mem_of_mem_drop h)
      simp only [takeWhile_dot hb6, List.append_assoc, split6 _ hc, hl]
    · rfl
  · intro t
    have h2 := dropWhile_line hn hb (10 :: t)
    have h3 := dropWhile_line hn hb [10]
    unfold cmatch
    rw [isComment, h2.1, h2.2.1, h3.2.2, prefix_line hlit, prefix_line hlit]
    split
    · rename_i hc
      have hb6 : 10 ∉ (l.dropWhile isIndent).drop 6 := fun h => hk (List.mem_of_mem_drop h)
      have e : (l.dropWhile isIndent ++ 10 :: t).drop 6 = (l.dropWhile isIndent).drop 6 ++ 10 :: t := by
        obtain ⟨r, hr⟩ := List.isPrefixOf_iff_prefix.mp hc
        rw [← hr]; rfl
      rw [e]
      simp only [takeWhile_dot hb6, List.append_assoc]
      rw [← List.append_assoc (lit "//line"), split6 _ hc, ← List.append_assoc, hl]
    · rfl

theorem cmatch_lines {L : List Bytes} (h : IsLines L) : cmatch L.flatten = (eat L).map fun x => (x.1, x.2.flatten) := by
  induction h with
  | nil => rfl
  | @last l h1 h2 =>
    rw [eat]
    cases hb : isBlank l with
    | true =>
      rw [blank_not_comment hb]
      have := cmatch_blank hb []
      simp only [List.flatten_cons, List.flatten_nil]
      rw [this]; rfl
    | false =>
      have := (cmatch_line h2 hb).1
      simp only [List.flatten_cons, List.flatten_nil, List.append_nil]
      rw [this]
      split <;> rfl
  | @cons l ls h1 h2 ih =>
    rw [eat, blank_append]
    simp only [List.flatten_cons, List.append_assoc, List.singleton_append]
    cases hb : isBlank l with
    | true =>
      have hb' : isBlank (l ++ [10]) = true := by rw [blank_append, hb]
      rw [blank_not_comment hb']
      have := cmatch_blank hb' ls.flatten
      simp only [List.append_assoc, List.singleton_append] at this
      rw [this, ih]
      simp only [Bool.false_eq_true, if_false, if_true, Option.map_map]
      rfl
    | false =>
      rw [(cmatch_line h1 hb).2]
      split <;> rfl

/-! ## The search -/

theorem commentNext_eq (L : List Bytes) : commentNext L = (eat L).isSome := by
  induction L with
  | nil => rfl
  | cons l ls ih =>
    rw [commentNext, eat]
    cases isComment l
    · cases isBlank l <;> simp [ih]
    · rfl

theorem eat_isLines {L : List Bytes} (h : IsLines L) {x : Bytes} {R : List Bytes} (he : eat L = some (x, R)) :
    IsLines R ∧ L.flatten = x ++ R.flatten ∧ kept L = kept R ∧ x ≠ [] ∧ (R ≠ [] → x.getLast? = some 10) := by
  induction h generalizing x R with
  | nil => exact absurd he (by simp [eat])
  | @last l h1 h2 =>
    rw [eat] at he
    split at he
    · rename_i hc
      simp only [Option.some.injEq, Prod.mk.injEq] at he
      obtain ⟨rfl, rfl⟩ := he
      exact ⟨.nil, rfl, by simp [kept, hc], h1, by simp⟩
    · split at he
      · simp [eat] at he
      · simp at he
  | @cons l ls h1 h2 ih =>
    rw [eat] at he
    split at he
    · rename_i hc
      simp only [Option.some.injEq, Prod.mk.injEq] at he
      obtain ⟨rfl, rfl⟩ := he
      exact ⟨h2, rfl, by simp [kept, hc], by simp, by simp⟩
    · split at he
      · rename_i hb
        obtain ⟨⟨y, R'⟩, h3, h4⟩ := Option.map_eq_some_iff.mp he
        simp only [Prod.mk.injEq] at h4
        obtain ⟨rfl, rfl⟩ := h4
        obtain ⟨i1, i2, i3, i4, i5⟩ := ih h3
        refine ⟨i1, by rw [List.flatten_cons, i2]; simp, ?_, by simp, ?_⟩
        · rw [kept, commentNext_eq, h3, hb]; simp [i3]
        · intro hR
          rw [List.getLast?_append, i5 hR]; rfl
      · simp at he

/-- The lines skipped, the text matched, the lines that follow. -/
def seek : List Bytes → Option (List Bytes × Bytes × List Bytes)
  | [] => none
  | l :: ls =>
      match eat (l :: ls) with
      | some x => some ([], x.1, x.2)
      | none => (seek ls).map fun x => (l :: x.1, x.2)

theorem find_mid {l : Bytes} (hn : 10 ∉ l) {d : UInt8} (hd : d ≠ 10) :
    commentLineRegex.find (some d) l = none ∧
    ∀ t, commentLineRegex.find (some d) (l ++ 10 :: t) =
      (commentLineRegex.find (some 10) t).map fun y => (l ++ 10 :: y.1, y.2) := by
  induction l generalizing d with
  | nil =>
    constructor
    · rw [find_eq, run_comment_mid hd]; rfl
    · intro t
      rw [find_eq, run_comment_mid hd]; rfl
  | cons c l ih =>
    have hc : c ≠ 10 := fun e => hn (by simp [e])
    have hl : 10 ∉ l := fun h => hn (by simp [h])
    constructor
    · rw [find_eq, run_comment_mid hd]
      simp [(ih hl hc).1]
    · intro t
      rw [find_eq, run_comment_mid hd]
      simp only [List.head?_nil, List.cons_append, (ih hl hc).2, Option.map_map]
      rfl

theorem find_lines {L : List Bytes} (h : IsLines L) {prev : Option UInt8} (hp : prev = none ∨ prev = some 10) :
    commentLineRegex.find prev L.flatten = (seek L).map fun x => (x.1.flatten, ⟨x.2.1, x.2.2.flatten, []⟩) := by
  induction h generalizing prev with
  | nil =>
    rw [find_eq, run_comment_bol hp]; rfl
  | @last l h1 h2 =>
    rw [find_eq, run_comment_bol hp, cmatch_lines (.last h1 h2), seek]
    cases he : eat [l] with
    | some x => rfl
    | none =>
      simp only [List.flatten_cons, List.flatten_nil, List.append_nil, seek]
      cases l with
      | nil => exact absurd rfl h1
      | cons c l =>
        have hc : c ≠ 10 := fun e => h2 (by simp [e])
        simp [(find_mid (l := l) (fun h => h2 (by simp [h])) hc).1]
  | @cons l ls h1 h2 ih =>
    rw [find_eq, run_comment_bol hp, cmatch_lines (.cons h1 h2), seek]
    cases he : eat ((l ++ [10]) :: ls) with
    | some x => rfl
    | none =>
      simp only [List.flatten_cons, List.append_assoc, List.singleton_append]
      cases l with
      | nil =>
        simp only [List.nil_append, Option.map_none]
        rw [ih (.inr rfl)]
        simp only [Option.map_map]
        rfl
      | cons c l =>
        have hc : c ≠ 10 := fun e => h1 (by simp [e])
        simp only [List.cons_append, Option.map_none]
        rw [(find_mid (l := l) (fun h => h1 (by simp [h])) hc).2, ih (.inr rfl)]
        simp only [Option.map_map]
        cases seek ls <;> simp

theorem seek_kept {L : List Bytes} (h : IsLines L) :
    (seek L = none → kept L = L) ∧
    ∀ S x R, seek L = some (S, x, R) → kept L = S ++ kept R ∧ IsLines R ∧ x ≠ [] ∧ L.flatten = S.flatten ++ x ++ R.flatten ∧
      (R ≠ [] → x.getLast? = some 10) := by
  induction h with
  | nil => exact ⟨fun _ => rfl, by simp [seek]⟩
  | @last l h1 h2 =>
    constructor
    · intro hs
      rw [seek] at hs
      cases he : eat [l] with
      | some x => rw [he] at hs; simp at hs
      | none =>
        have := commentNext_eq [l]
        rw [he, commentNext] at this
        rw [kept, this]; simp [kept]
    · intro S x R hs
      rw [seek] at hs
      cases he : eat [l] with
      | some y =>
        rw [he] at hs
        simp only [Option.some.injEq, Prod.mk.injEq] at hs
        obtain ⟨rfl, rfl, rfl⟩ := hs
        obtain ⟨i1, i2, i3, i4, i5⟩ := eat_isLines (.last h1 h2) he
        exact ⟨by simpa using i3, i1, i4, by simpa using i2, i5⟩
      | none => rw [he] at hs; simp [seek] at hs
  | @cons l ls h1 h2 ih =>
    constructor
    · intro hs
      rw [seek] at hs
      cases he : eat ((l ++ [10]) :: ls) with
      | some x => rw [he] at hs; simp at hs
      | none =>
        rw [he] at hs
        simp only [Option.map_eq_none_iff] at hs
        have := commentNext_eq ((l ++ [10]) :: ls)
        rw [he, commentNext] at this
        rw [kept, this]; simp [ih.1 hs]
    · intro S x R hs
      rw [seek] at hs
      cases he : eat ((l ++ [10]) :: ls) with
      | some y =>
        rw [he] at hs
        simp only [Option.some.injEq, Prod.mk.injEq] at hs
        obtain ⟨rfl, rfl, rfl⟩ := hs
        obtain ⟨i1, i2, i3, i4, i5⟩ := eat_isLines (.cons h1 h2) he
        exact ⟨by simpa using i3, i1, i4, by simpa using i2, i5⟩
      | none =>
        rw [he] at hs
        obtain ⟨⟨S', x', R'⟩, h3, h4⟩ := Option.map_eq_some_iff.mp hs
        simp only [Prod.mk.injEq] at h4
        obtain ⟨rfl, rfl, rfl⟩ := h4
        obtain ⟨i1, i2, i3, i4, i5⟩ := ih.2 _ _ _ h3
        refine ⟨?_, i2, i3, ?_, i5⟩
        · have := commentNext_eq ((l ++ [10]) :: ls)
          rw [he, commentNext] at this
          rw [kept, this, i1]; simp
        · rw [List.flatten_cons, i4]; simp

/-- All of the search. -/
theorem findAll_lines {fuel : Nat} {L : List Bytes} (h : IsLines L) {prev : Option UInt8} (hf : L.flatten.length < fuel)
    (hp : L = [] ∨ prev = none ∨ prev = some 10) :
    (commentLineRegex.findAll fuel prev L.flatten).1.flatMap (fun x => x.1) ++ (commentLineRegex.findAll fuel prev L.flatten).2 =
      (kept L).flatten := by
  induction fuel generalizing L prev with
  | zero => exact absurd hf (by omega)
  | succ fuel ih =>
    by_cases hL : L = []
    · subst hL
      have : commentLineRegex.find prev ([] : List Bytes).flatten = none := by
        rw [find_eq]
        cases prev with
        | none => rw [run_comment_bol (.inl rfl)]; rfl
        | some c =>
          by_cases hc : c = 10
          · subst hc; rw [run_comment_bol (.inr rfl)]; rfl
          · rw [run_comment_mid hc]; rfl
      rw [Re.findAll, this]; rfl
    · have hp := hp.resolve_left hL
      rw [Re.findAll, find_lines h hp]
      cases hs : seek L with
      | none => simp [(seek_kept h).1 hs]
      | some y =>
        obtain ⟨S, x, R⟩ := y
        obtain ⟨i1, i2, i3, i4, i5⟩ := (seek_kept h).2 S x R hs
        simp only [Option.map_some, if_neg i3, List.flatMap_cons, List.append_assoc]
        have hlen : R.flatten.length < fuel := by
          have := congrArg List.length i4
          simp only [List.length_append] at this
          have := List.length_pos_iff.mpr i3
          omega
        have := ih (prev := x.getLast?) i2 hlen (by
          by_cases hR : R = []
          · exact .inl hR
          · exact .inr (.inr (i5 hR)))
        rw [this, i1, List.flatten_append]

theorem removeComments_eq (t : Bytes) : removeComments t = (kept (lines t)).flatten := by
  have := findAll_lines (fuel := t.length + 1) (lines_isLines t) (prev := none) (by rw [lines_flatten]; omega) (.inr (.inl rfl))
  rw [lines_flatten] at this
  exact this

theorem kept_isLines {L : List Bytes} (h : IsLines L) : IsLines (kept L) := by
  induction h with
  | nil => exact .nil
  | last h1 h2 =>
    simp only [kept]
    split
    · exact .nil
    · exact .last h1 h2
  | cons h1 _ ih =>
    rw [kept]
    split
    · exact ih
    · exact .cons h1 ih

end Urn.Tools
