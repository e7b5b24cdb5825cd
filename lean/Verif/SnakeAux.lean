import Verif.CommentAux
import Verif.Sim
/-!
# snake2camel: matches, lines, rounds
-/
set_option autoImplicit false
namespace Urn.Tools
open Regex SpecTools

/-- The expression after its first group. -/
def snakeTail : Re :=
  .seq (.cap (.seq (Re.plus lowerCase) (.star digit))) (.seq (Re.text (lit "_")) (.seq (.cap (.cls alnum)) (.cap (.star dot))))

theorem underscore_run (prev : Option UInt8) (s : Bytes) :
    (Re.text (lit "_")).run prev s = match s with
      | c :: t => if c = 95 then [⟨[95], t, []⟩] else []
      | [] => [] := by
  rw [run_text (by decide)]
  cases s with
  | nil => rfl
  | cons c t =>
    by_cases hc : c = 95
    · subst hc; rfl
    · have : ¬ (95 : UInt8) = c := fun h => hc h.symm
      simp [lit, List.isPrefixOf, hc, this]

theorem map_head {α β : Type} {f : α → β} {l : List α} {y : β} (h : (l.map f).head? = some y) : ∃ x, l.head? = some x ∧ y = f x := by
  rw [List.head?_map, Option.map_eq_some_iff] at h
  obtain ⟨x, h1, rfl⟩ := h
  exact ⟨x, h1, rfl⟩

/-- The last part: underscore, character, rest of the line. -/
theorem last_head {prev : Option UInt8} {s : Bytes} {y : Found}
    (h : ((Re.seq (Re.text (lit "_")) (.seq (.cap (.cls alnum)) (.cap (.star dot)))).run prev s).head? = some y) :
    ∃ c b, s = 95 :: c :: b ∧ alnum c = true ∧ y = ⟨95 :: c :: b.takeWhile dot, b.dropWhile dot, [[c], b.takeWhile dot]⟩ := by
  rw [Re.run, underscore_run] at h
  cases s with
  | nil => simp at h
  | cons d s =>
    by_cases hd : d = 95
    · subst hd
      simp only [if_true, List.flatMap_cons, List.flatMap_nil, List.append_nil] at h
      obtain ⟨z, hz, rfl⟩ := map_head h
      cases s with
      | nil => simp [Re.run] at hz
      | cons c b =>
        by_cases hc : alnum c = true
        · simp only [Re.run, hc, if_true, List.map_cons, List.map_nil, List.flatMap_cons, List.flatMap_nil, List.append_nil, List.map_map] at hz
          obtain ⟨w, hw, rfl⟩ := map_head hz
          rw [starRuns_head] at hw
          obtain rfl := Option.some.inj hw
          exact ⟨c, b, rfl, hc, rfl⟩
        · simp [Re.run, hc] at hz
    · simp [hd] at h

theorem last_ne {prev : Option UInt8} {c : UInt8} {b : Bytes} (hc : alnum c = true) :
    (Re.seq (Re.text (lit "_")) (.seq (.cap (.cls alnum)) (.cap (.star dot)))).run prev (95 :: c :: b) ≠ [] := by
  rw [Re.run, underscore_run]
  simp only [if_true, List.flatMap_cons, List.flatMap_nil, List.append_nil, Re.run, hc, List.map_cons, List.map_nil, List.map_map]
  intro h
  have := List.map_eq_nil_iff.mp h
  have h2 := starRuns_head (p := dot) b
  rw [this] at h2
  simp at h2

theorem mem_word {prev : Option UInt8} {r : Bytes} {z : Found} :
    z ∈ (Re.seq (Re.plus lowerCase) (.star digit)).run prev r ↔
      ∃ x ms ds q, r = x :: ms ++ (ds ++ q) ∧ lowerCase x = true ∧ (∀ d ∈ ms, lowerCase d = true) ∧ (∀ d ∈ ds, digit d = true) ∧
        z = ⟨x :: ms ++ ds, q, []⟩ := by
  simp only [Re.run, Re.plus, List.mem_flatMap, List.mem_map, Prod.exists]
  constructor
  · rintro ⟨u, ⟨v, hv, w, ⟨m, q, hm, rfl⟩, rfl⟩, w', ⟨ds, q', hd, rfl⟩, rfl⟩
    cases r with
    | nil => simp at hv
    | cons x r =>
      by_cases hx : lowerCase x = true
      · simp only [hx, if_true, List.mem_singleton] at hv
        subst hv
        obtain ⟨h1, h2⟩ := mem_starRuns.mp hm
        obtain ⟨h3, h4⟩ := mem_starRuns.mp hd
        simp only at h1 h3
        refine ⟨x, m, ds, q', by rw [h1, h3]; rfl, hx, h2, h4, by simp⟩
      · simp [hx] at hv
  · rintro ⟨x, ms, ds, q, rfl, hx, hm, hd, rfl⟩
    refine ⟨⟨x :: ms, ds ++ q, []⟩, ⟨⟨[x], ms ++ (ds ++ q), []⟩, by simp [hx], ⟨ms, ds ++ q, []⟩, ⟨ms, ds ++ q, mem_starRuns.mpr ⟨rfl, hm⟩, rfl⟩, by simp⟩,
      ⟨ds, q, []⟩, ⟨ds, q, mem_starRuns.mpr ⟨rfl, hd⟩, rfl⟩, by simp⟩

theorem tail_head {prev : Option UInt8} {r : Bytes} {y : Found} (h : (snakeTail.run prev r).head? = some y) :
    ∃ x ms ds c b, r = x :: ms ++ (ds ++ 95 :: c :: b) ∧ lowerCase x = true ∧ (∀ d ∈ ms, lowerCase d = true) ∧
      (∀ d ∈ ds, digit d = true) ∧ alnum c = true ∧
      y = ⟨x :: ms ++ (ds ++ 95 :: c :: b.takeWhile dot), b.dropWhile dot, [x :: ms ++ ds, [c], b.takeWhile dot]⟩ := by
  rw [snakeTail, Re.run] at h
  obtain ⟨_, z, _, h1, _, h2⟩ := flatMap_head h
  have hz : z ∈ (Re.cap (.seq (Re.plus lowerCase) (.star digit))).run prev r := by rw [h1]; simp
  obtain ⟨w, hw, rfl⟩ := map_head h2
  obtain ⟨c, b, hr, hc, rfl⟩ := last_head hw
  rw [Re.run, List.mem_map] at hz
  obtain ⟨z', hz', rfl⟩ := hz
  obtain ⟨x, ms, ds, q, rfl, hx, hm, hd, rfl⟩ := mem_word.mp hz'
  simp only at hr
  subst hr
  exact ⟨x, ms, ds, c, b, rfl, hx, hm, hd, hc, by simp⟩

theorem tail_ne {prev : Option UInt8} {x : UInt8} {ds : Bytes} {c : UInt8} {b : Bytes} (hx : lowerCase x = true)
    (hd : ∀ d ∈ ds, digit d = true) (hc : alnum c = true) : snakeTail.run prev (x :: (ds ++ 95 :: c :: b)) ≠ [] := by
  intro h
  rw [snakeTail, Re.run, List.flatMap_eq_nil_iff] at h
  have hz : (⟨x :: ds, 95 :: c :: b, [x :: ds]⟩ : Found) ∈
      (Re.cap (.seq (Re.plus lowerCase) (.star digit))).run prev (x :: (ds ++ 95 :: c :: b)) := by
    rw [Re.run, List.mem_map]
    exact ⟨⟨x :: ds, 95 :: c :: b, []⟩, mem_word.mpr ⟨x, [], ds, _, rfl, hx, by simp, hd, rfl⟩, rfl⟩
  exact last_ne hc (List.map_eq_nil_iff.mp (h _ hz))

/-! ## One match -/

theorem mem_takeWhile {p : UInt8 → Bool} {c : UInt8} : ∀ {l : Bytes}, c ∈ l.takeWhile p → p c = true
  | [], h => absurd h (by simp)
  | a :: l, h => by
    rw [List.takeWhile_cons] at h
    split at h
    · next ha =>
      rcases List.mem_cons.mp h with rfl | h
      · exact ha
      · exact mem_takeWhile h
    · exact absurd h (by simp)

theorem takeWhile_pre {w : Bytes} (hw : ∀ c ∈ w, dot c = true) (b : Bytes) :
    (w ++ b).takeWhile dot = w ++ b.takeWhile dot ∧ (w ++ b).dropWhile dot = b.dropWhile dot :=
  ⟨takeWhile_all hw b, dropWhile_all hw b⟩

theorem lower_dot : ∀ c, lowerCase c = true → dot c = true := forall_byte (by decide +kernel)
theorem digit_dot : ∀ c, digit c = true → dot c = true := forall_byte (by decide +kernel)
theorem alnum_dot : ∀ c, alnum c = true → dot c = true := forall_byte (by decide +kernel)

theorem snakeRegex_eq : snakeRegex = .seq (.cap (.star dot)) snakeTail := rfl

/-- No match: no snake in the line. -/
theorem snake_none {prev : Option UInt8} {s : Bytes} (h : snakeRegex.run prev s = []) : ¬ HasSnake (s.takeWhile dot) := by
  rintro ⟨a, x, ds, y, b, hs⟩
  rw [snakeRegex_eq, Re.run, List.flatMap_eq_nil_iff] at h
  have e : s = a ++ (x :: (ds ++ 95 :: y :: (b ++ s.dropWhile dot))) := by
    have := List.takeWhile_append_dropWhile (p := dot) (l := s)
    rw [hs.eq] at this
    simpa using this.symm
  have ha : ∀ c ∈ a, dot c = true := by
    intro c hc
    have : c ∈ s.takeWhile dot := by rw [hs.eq]; simp [hc]
    exact mem_takeWhile this
  have hm : (⟨a, x :: (ds ++ 95 :: y :: (b ++ s.dropWhile dot)), [a]⟩ : Found) ∈ (Re.cap (.star dot)).run prev s := by
    simp only [Re.run, List.map_map, List.mem_map, Prod.exists]
    exact ⟨a, _, mem_starRuns.mpr ⟨e, ha⟩, rfl⟩
  exact tail_ne hs.hx hs.hds hs.hy (List.map_eq_nil_iff.mp (h _ hm))

theorem upper_eq (c : UInt8) : toUpper [c] = [upper c] := rfl

/-- A match: the whole line, and the replacement is a step. -/
theorem snake_some {prev : Option UInt8} {s : Bytes} {y : Found} (h : (snakeRegex.run prev s).head? = some y) :
    y.text = s.takeWhile dot ∧ y.rest = s.dropWhile dot ∧ Step (s.takeWhile dot) (repl y) ∧ y.text ≠ [] := by
  rw [snakeRegex_eq, Re.run] at h
  obtain ⟨pre, z, post, h1, h2, h3⟩ := flatMap_head h
  simp only [Re.run, List.map_map] at h1
  obtain ⟨w, hw, rfl⟩ := map_head h3
  obtain ⟨x, ms, ds, c, b, hr, hx, hm, hd, hc, rfl⟩ := tail_head hw
  have hz : z ∈ (starRuns dot s).map ((fun x : Found => (⟨x.text, x.rest, x.text :: x.groups⟩ : Found)) ∘ fun x : Bytes × Bytes => ⟨x.1, x.2, []⟩) := by
    rw [h1]; simp
  obtain ⟨⟨g, r⟩, hg, rfl⟩ := List.mem_map.mp hz
  obtain ⟨e, hdot⟩ := mem_starRuns.mp hg
  simp only [Function.comp] at hr
  subst hr
  have hall : ∀ d ∈ g ++ (x :: ms ++ (ds ++ [95, c])), dot d = true := by
    intro d hdm
    simp only [List.mem_append, List.mem_cons, List.not_mem_nil, or_false] at hdm
    rcases hdm with hdm | (rfl | hdm) | hdm | rfl | rfl
    · exact hdot d hdm
    · exact lower_dot d hx
    · exact lower_dot d (hm d hdm)
    · exact digit_dot d (hd d hdm)
    · decide
    · exact alnum_dot d hc
  have e' : s = (g ++ (x :: ms ++ (ds ++ [95, c]))) ++ b := by rw [e]; simp
  have et : s.takeWhile dot = g ++ (x :: ms ++ (ds ++ 95 :: c :: b.takeWhile dot)) := by
    rw [e', (takeWhile_pre hall b).1]; simp
  have ed : s.dropWhile dot = b.dropWhile dot := by rw [e', (takeWhile_pre hall b).2]
  -- the letter before the digits
  obtain ⟨ini, l, hl⟩ : ∃ ini l, x :: ms = ini ++ [l] := by
    rcases List.eq_nil_or_concat (x :: ms) with h | ⟨ini, l, h⟩
    · exact absurd h (by simp)
    · exact ⟨ini, l, by rw [h, List.concat_eq_append]⟩
  have hll : lowerCase l = true := by
    have : l ∈ x :: ms := by rw [hl]; simp
    rcases List.mem_cons.mp this with rfl | h
    · exact hx
    · exact hm l h
  have hsn : Snake (s.takeWhile dot) (g ++ ini) l ds c (b.takeWhile dot) := by
    refine ⟨?_, hll, hd, hc⟩
    rw [et, hl]; simp
  refine ⟨by simp [Function.comp, et], ed.symm, ⟨g ++ ini, l, ds, c, b.takeWhile dot, hsn, ?_, ?_⟩, by simp⟩
  · intro a' x' ds' y' b' hs'
    -- its first group is not longer
    have hle : a'.length ≤ g.length := by
      rcases Nat.lt_or_ge g.length a'.length with hlt | hge
      · exfalso
        have es : s = a' ++ (x' :: (ds' ++ 95 :: y' :: (b' ++ s.dropWhile dot))) := by
          have := List.takeWhile_append_dropWhile (p := dot) (l := s)
          rw [hs'.eq] at this
          simpa using this.symm
        have ha' : ∀ d ∈ a', dot d = true := by
          intro d hd
          have : d ∈ s.takeWhile dot := by rw [hs'.eq]; simp [hd]
          exact mem_takeWhile this
        have hmem := mem_starRuns.mpr ⟨es, ha'⟩
        have hsort := starRuns_sorted (p := dot) s
        have hmem' := List.mem_map_of_mem (f := (fun x : Found => (⟨x.text, x.rest, x.text :: x.groups⟩ : Found)) ∘ fun x : Bytes × Bytes => ⟨x.1, x.2, []⟩) hmem
        rw [h1] at hmem'
        have hsort' : ((starRuns dot s).map ((fun x : Found => (⟨x.text, x.rest, x.text :: x.groups⟩ : Found)) ∘ fun x : Bytes × Bytes => ⟨x.1, x.2, []⟩)).Pairwise
            fun x y => y.text.length < x.text.length := by
          rw [List.pairwise_map]; exact hsort
        rw [h1, List.pairwise_append] at hsort'
        rcases List.mem_append.mp hmem' with hp | hp
        · have := h2 _ hp
          exact tail_ne hs'.hx hs'.hds hs'.hy (List.map_eq_nil_iff.mp this)
        · rcases List.mem_cons.mp hp with hp | hp
          · have := congrArg (fun f : Found => f.text.length) hp
            simp only [Function.comp] at this
            omega
          · have := (List.pairwise_cons.mp hsort'.2.1).1 _ hp
            simp only [Function.comp] at this
            omega
      · exact hge
    rcases Nat.lt_or_ge b'.length (b.takeWhile dot).length with hlt | hge
    · exfalso
      -- the underscore would be one of its digits
      have e2 : g ++ (x :: ms ++ (ds ++ 95 :: c :: b.takeWhile dot)) = a' ++ x' :: (ds' ++ 95 :: y' :: b') := by
        rw [← et, ← hs'.eq]
      have hlen := congrArg List.length e2
      simp only [List.length_append, List.length_cons] at hlen
      have hk := congrArg (fun l => l[g.length + (ms.length + 1) + ds.length]?) e2
      have hL : (g ++ (x :: ms ++ (ds ++ 95 :: c :: b.takeWhile dot)))[g.length + (ms.length + 1) + ds.length]? = some 95 := by
        have : g ++ (x :: ms ++ (ds ++ 95 :: c :: b.takeWhile dot)) = (g ++ (x :: ms) ++ ds) ++ 95 :: c :: b.takeWhile dot := by simp
        have hn : (g ++ (x :: ms) ++ ds).length = g.length + (ms.length + 1) + ds.length := by simp; omega
        rw [this, List.getElem?_append_right (by rw [hn]; exact Nat.le_refl _), hn, Nat.sub_self]
        rfl
      have hR : ∃ d ∈ ds', (a' ++ x' :: (ds' ++ 95 :: y' :: b'))[g.length + (ms.length + 1) + ds.length]? = some d := by
        have : a' ++ x' :: (ds' ++ 95 :: y' :: b') = (a' ++ [x']) ++ (ds' ++ 95 :: y' :: b') := by simp
        rw [this, List.getElem?_append_right (by simp; omega), List.getElem?_append_left (by simp; omega)]
        rw [List.getElem?_eq_getElem (by simp; omega)]
        exact ⟨_, List.getElem_mem _, rfl⟩
      obtain ⟨d, hd', hR⟩ := hR
      simp only [hL, hR] at hk
      have : d = 95 := (Option.some.inj hk).symm
      subst this
      exact absurd (hs'.hds 95 hd') (by decide)
    · exact hge
  · simp only [repl, group, Function.comp, List.cons_append, List.nil_append, List.getElem?_cons_zero, List.getElem?_cons_succ, Option.getD_some, upper_eq]
    rw [← List.cons_append, hl]
    simp

theorem _root_.Urn.SpecTools.Step.snake {t t' : Bytes} (h : Step t t') : HasSnake t := by
  obtain ⟨a, x, ds, y, b, h, _⟩ := h
  exact ⟨a, x, ds, y, b, h⟩

/-- The first match at the beginning of a line. -/
theorem snake_run (prev : Option UInt8) {l : Bytes} (hn : 10 ∉ l) {t : Bytes} (ht : t = [] ∨ t.head? = some 10) :
    (¬ HasSnake l ∧ snakeRegex.run prev (l ++ t) = []) ∨
    ∃ y, (snakeRegex.run prev (l ++ t)).head? = some y ∧ y.text = l ∧ y.rest = t ∧ Step l (repl y) ∧ y.text ≠ [] := by
  have e : (l ++ t).takeWhile dot = l ∧ (l ++ t).dropWhile dot = t := by
    obtain ⟨h1, h2, h3⟩ := takeWhile_dot hn
    cases t with
    | nil => rw [List.append_nil]; exact ⟨h2, h1⟩
    | cons c t =>
      have : c = 10 := by simpa using ht
      subst this
      exact ⟨(h3 t).2, (h3 t).1⟩
  cases h : (snakeRegex.run prev (l ++ t)).head? with
  | none =>
    left
    have := head_none.mp h
    have h1 := snake_none this
    rw [e.1] at h1
    exact ⟨h1, this⟩
  | some y =>
    right
    obtain ⟨h1, h2, h3, h4⟩ := snake_some h
    rw [e.1] at h1 h3
    rw [e.2] at h2
    exact ⟨y, rfl, h1, h2, h3, h4⟩

theorem _root_.Urn.SpecTools.HasSnake.cons {c : UInt8} {l : Bytes} (h : HasSnake l) : HasSnake (c :: l) := by
  obtain ⟨a, x, ds, y, b, h⟩ := h
  exact ⟨c :: a, x, ds, y, b, by rw [h.eq]; rfl, h.hx, h.hds, h.hy⟩

/-- A line with nothing to do is skipped. -/
theorem find_skip {l : Bytes} (hn : 10 ∉ l) (hs : ¬ HasSnake l) :
    (∀ prev, snakeRegex.find prev l = none) ∧
    ∀ prev t, snakeRegex.find prev (l ++ 10 :: t) = (snakeRegex.find (some 10) t).map fun y => (l ++ 10 :: y.1, y.2) := by
  induction l with
  | nil =>
    constructor
    · intro prev
      rw [find_eq]
      rcases snake_run prev hn (t := []) (.inl rfl) with ⟨_, h⟩ | ⟨y, _, _, _, h, _⟩
      · simp only [List.append_nil] at h
        rw [h]; rfl
      · exact absurd h.snake hs
    · intro prev t
      rw [find_eq]
      rcases snake_run prev hn (t := 10 :: t) (.inr rfl) with ⟨_, h⟩ | ⟨y, _, _, _, h, _⟩
      · rw [h]; rfl
      · exact absurd h.snake hs
  | cons c l ih =>
    have hn' : 10 ∉ l := fun h => hn (by simp [h])
    obtain ⟨h1, h2⟩ := ih hn' fun h => hs h.cons
    constructor
    · intro prev
      rw [find_eq]
      rcases snake_run prev hn (t := []) (.inl rfl) with ⟨_, h⟩ | ⟨y, _, _, _, h, _⟩
      · simp only [List.append_nil] at h
        rw [h]
        simp [h1]
      · exact absurd h.snake hs
    · intro prev t
      rw [find_eq]
      rcases snake_run prev hn (t := 10 :: t) (.inr rfl) with ⟨_, h⟩ | ⟨y, _, _, _, h, _⟩
      · rw [h]
        simp only [List.cons_append, List.head?_nil, h2]
        cases snakeRegex.find (some 10) t <;> rfl
      · exact absurd h.snake hs

theorem findAll_none {r : Re} {fuel : Nat} {prev : Option UInt8} {s : Bytes} (h : r.find prev s = none) :
    r.findAll fuel prev s = ([], s) := by
  cases fuel with
  | zero => rfl
  | succ fuel => rw [Re.findAll, h]

/-- The text that a pass produces. -/
def out (y : List (Bytes × Found) × Bytes) : Bytes := y.1.flatMap (fun x => x.1 ++ repl x.2) ++ y.2

theorem findAll_skip {r : Re} {fuel : Nat} {prev prev' : Option UInt8} {k t : Bytes}
    (h : r.find prev (k ++ t) = (r.find prev' t).map fun y => (k ++ y.1, y.2)) :
    out (r.findAll fuel prev (k ++ t)) = k ++ out (r.findAll fuel prev' t) ∧
      ((r.findAll fuel prev (k ++ t)).1 = [] ↔ (r.findAll fuel prev' t).1 = []) := by
  cases fuel with
  | zero => simp [Re.findAll, out]
  | succ fuel =>
    rw [Re.findAll, Re.findAll, h]
    cases r.find prev' t with
    | none => simp [out]
    | some y =>
      obtain ⟨s, x⟩ := y
      simp only [Option.map_some]
      by_cases hx : x.text = []
      · simp [hx, out]
      · simp [hx, out]

/-- What a pass does to a line. -/
def Pass (l l' : Bytes) : Prop := Step l l' ∨ (¬ HasSnake l ∧ l' = l)

theorem snake_nl {l a : Bytes} {x : UInt8} {ds : Bytes} {y : UInt8} {b : Bytes} (h : Snake (l ++ [10]) a x ds y b) :
    ∃ b', b = b' ++ [10] ∧ Snake l a x ds y b' := by
  rcases List.eq_nil_or_concat b with rfl | ⟨b', c, rfl⟩
  · exfalso
    have e := h.eq
    have : (l ++ [10]).getLast? = (a ++ x :: (ds ++ [95, y])).getLast? := by rw [e]
    have e2 : a ++ x :: (ds ++ [95, y]) = (a ++ x :: (ds ++ [95])) ++ [y] := by simp
    rw [e2, List.getLast?_append, List.getLast?_append] at this
    simp at this
    exact absurd h.hy (by rw [← this]; decide)
  · rw [List.concat_eq_append] at h
    have e := h.eq
    have e2 : a ++ x :: (ds ++ 95 :: y :: (b' ++ [c])) = (a ++ x :: (ds ++ 95 :: y :: b')) ++ [c] := by simp
    rw [e2] at e
    obtain ⟨e3, e4⟩ := List.append_inj' e rfl
    rw [List.cons.injEq] at e4
    refine ⟨b', by rw [List.concat_eq_append, e4.1], e3, h.hx, h.hds, h.hy⟩

theorem _root_.Urn.SpecTools.Snake.nl {l a : Bytes} {x : UInt8} {ds : Bytes} {y : UInt8} {b : Bytes} (h : Snake l a x ds y b) :
    Snake (l ++ [10]) a x ds y (b ++ [10]) := ⟨by rw [h.eq]; simp, h.hx, h.hds, h.hy⟩

theorem hasSnake_nl {l : Bytes} : HasSnake (l ++ [10]) ↔ HasSnake l := by
  constructor
  · rintro ⟨a, x, ds, y, b, h⟩
    obtain ⟨b', _, h⟩ := snake_nl h
    exact ⟨a, x, ds, y, b', h⟩
  · rintro ⟨a, x, ds, y, b, h⟩
    exact ⟨a, x, ds, y, b ++ [10], h.nl⟩

theorem _root_.Urn.SpecTools.Step.nl {l l' : Bytes} (h : Step l l') : Step (l ++ [10]) (l' ++ [10]) := by
  obtain ⟨a, x, ds, y, b, h1, h2, rfl⟩ := h
  refine ⟨a, x, ds, y, b ++ [10], h1.nl, ?_, by simp⟩
  intro a' x' ds' y' b' hs
  obtain ⟨b0, rfl, hs'⟩ := snake_nl hs
  have := h2 _ _ _ _ _ hs'
  simp only [List.length_append]
  omega

theorem Pass.nl {l l' : Bytes} (h : Pass l l') : Pass (l ++ [10]) (l' ++ [10]) := by
  rcases h with h | ⟨h, rfl⟩
  · exact .inl h.nl
  · exact .inr ⟨fun h' => h (hasSnake_nl.mp h'), rfl⟩

theorem upper_ne : ∀ y, isAlnum y = true → upper y ≠ 10 ∧ upper y ≠ 95 ∧ y ≠ 95 ∧ isAlnum (upper y) = true ∧ isLower (upper y) = false :=
  forall_byte (by decide +kernel)

theorem _root_.Urn.SpecTools.Step.no_nl {l l' : Bytes} (h : Step l l') (hn : 10 ∉ l) : 10 ∉ l' := by
  obtain ⟨a, x, ds, y, b, h1, _, rfl⟩ := h
  rw [h1.eq] at hn
  intro hm
  simp only [List.mem_append, List.mem_cons] at hn hm
  rcases hm with hm | hm | hm | hm | hm
  · exact hn (.inl hm)
  · exact hn (.inr (.inl hm))
  · exact hn (.inr (.inr (.inl hm)))
  · exact absurd hm.symm (upper_ne y h1.hy).1
  · exact hn (.inr (.inr (.inr (.inr (.inr hm)))))

theorem Pass.no_nl {l l' : Bytes} (h : Pass l l') (hn : 10 ∉ l) : 10 ∉ l' := by
  rcases h with h | ⟨_, rfl⟩
  · exact h.no_nl hn
  · exact hn

theorem _root_.Urn.SpecTools.Step.ne_nil {l l' : Bytes} (h : Step l l') : l' ≠ [] := by
  obtain ⟨a, x, ds, y, b, h1, _, rfl⟩ := h
  simp

theorem Pass.ne_nil {l l' : Bytes} (h : Pass l l') (hl : l ≠ []) : l' ≠ [] := by
  rcases h with h | ⟨_, rfl⟩
  · exact h.ne_nil
  · exact hl

/-- One pass over a text. -/
theorem pass_lines {fuel : Nat} {L : List Bytes} (h : IsLines L) (prev : Option UInt8) (hf : L.flatten.length < fuel) :
    ∃ L', out (snakeRegex.findAll fuel prev L.flatten) = L'.flatten ∧ IsLines L' ∧ Linewise Pass L L' ∧
      ((snakeRegex.findAll fuel prev L.flatten).1 = [] ↔ ∀ l ∈ L, ¬ HasSnake l) := by
  induction h generalizing fuel prev with
  | nil =>
    have := (find_skip (l := []) (by simp) (by rintro ⟨a, x, ds, y, b, h⟩; exact absurd h.eq (by simp))).1
    refine ⟨[], ?_, .nil, .nil, by simp [findAll_none, this]⟩
    simp [findAll_none, this, out]
  | @last l h1 h2 =>
    simp only [List.flatten_cons, List.flatten_nil, List.append_nil] at hf ⊢
    rcases snake_run prev h2 (t := []) (.inl rfl) with ⟨hs, _⟩ | ⟨y, hy, e1, e2, h3, h4⟩
    · have := (find_skip h2 hs).1
      refine ⟨[l], by simp [findAll_none, this, out], .last h1 h2, .cons (.inr ⟨hs, rfl⟩) .nil, ?_⟩
      simp [findAll_none, this, hs]
    · rw [List.append_nil] at hy
      have hnil := (find_skip (l := []) (by simp) (by rintro ⟨a, x, ds, y, b, h⟩; exact absurd h.eq (by simp))).1
      have e : snakeRegex.findAll fuel prev l = ([([], y)], []) := by
        cases fuel with
        | zero => exact absurd hf (by omega)
        | succ fuel =>
          rw [Re.findAll, find_eq, hy]
          simp only [if_neg h4, e2, findAll_none (hnil _)]
      rw [e]
      exact ⟨[repl y], by simp [out], .last h3.ne_nil (h3.no_nl h2), .cons (.inl h3) .nil, by simp [h3.snake]⟩
  | @cons l ls h1 hls ih =>
    simp only [List.flatten_cons, List.append_assoc, List.singleton_append] at hf ⊢
    have hlen : ls.flatten.length < fuel - 1 := by
      simp only [List.length_append, List.length_cons] at hf; omega
    rcases snake_run prev h1 (t := 10 :: ls.flatten) (.inr rfl) with ⟨hs, _⟩ | ⟨y, hy, e1, e2, h3, h4⟩
    · have := (find_skip h1 hs).2 prev ls.flatten
      have hk := findAll_skip (r := snakeRegex) (fuel := fuel) (prev := prev) (prev' := some 10) (k := l ++ [10]) (t := ls.flatten)
        (by simpa using this)
      simp only [List.append_assoc, List.singleton_append] at hk
      obtain ⟨L', g1, g2, g3, g4⟩ := ih (fuel := fuel) (some 10) (by omega)
      refine ⟨(l ++ [10]) :: L', by rw [hk.1, g1]; simp, .cons h1 g2, .cons (Pass.nl (.inr ⟨hs, rfl⟩)) g3, ?_⟩
      rw [hk.2, g4]
      simp [hasSnake_nl, hs]
    · have hnil := (find_skip (l := []) (by simp) (by rintro ⟨a, x, ds, y, b, h⟩; exact absurd h.eq (by simp))).2
      cases fuel with
      | zero => exact absurd hf (by omega)
      | succ fuel =>
        have hk := findAll_skip (r := snakeRegex) (fuel := fuel) (prev := y.text.getLast?) (prev' := some 10) (k := [10]) (t := ls.flatten)
          (by simpa using hnil y.text.getLast? ls.flatten)
        obtain ⟨L', g1, g2, g3, g4⟩ := ih (fuel := fuel) (some 10) (by omega)
        have e : snakeRegex.findAll (fuel + 1) prev (l ++ 10 :: ls.flatten) =
            (([], y) :: (snakeRegex.findAll fuel y.text.getLast? (10 :: ls.flatten)).1, (snakeRegex.findAll fuel y.text.getLast? (10 :: ls.flatten)).2) := by
          rw [Re.findAll, find_eq, hy]
          simp only [if_neg h4, e2]
        rw [e]
        refine ⟨(repl y ++ [10]) :: L', ?_, .cons (h3.no_nl h1) g2, .cons (.inl h3.nl) g3, ?_⟩
        · have : out (([], y) :: (snakeRegex.findAll fuel y.text.getLast? (10 :: ls.flatten)).1, (snakeRegex.findAll fuel y.text.getLast? (10 :: ls.flatten)).2)
              = repl y ++ out (snakeRegex.findAll fuel y.text.getLast? (10 :: ls.flatten)) := by simp [out]
          rw [this]
          simp only [List.singleton_append] at hk
          rw [hk.1, g1]; simp
        · simp [hasSnake_nl, h3.snake]

/-! ## Rounds -/

theorem _root_.Urn.SpecTools.Step.count {t t' : Bytes} (h : Step t t') : t.count 95 = t'.count 95 + 1 := by
  obtain ⟨a, x, ds, y, b, h1, _, rfl⟩ := h
  obtain ⟨_, h2, h3, _⟩ := upper_ne y h1.hy
  rw [h1.eq]
  simp only [List.count_append, List.count_cons, beq_iff_eq, if_neg h2, if_neg h3, beq_self_eq_true, if_true]
  omega

theorem pass_count {L L' : List Bytes} (h : Linewise Pass L L') :
    L'.flatten.count 95 ≤ L.flatten.count 95 ∧ ((∀ l ∈ L, ¬ HasSnake l) ∨ L'.flatten.count 95 < L.flatten.count 95) ∧
    ((∀ l ∈ L, ¬ HasSnake l) → L' = L) := by
  induction h with
  | nil => simp
  | @cons l l' ls ls' hl _ ih =>
    simp only [List.flatten_cons, List.count_append]
    obtain ⟨i1, i2, i3⟩ := ih
    rcases hl with hl | ⟨hl, rfl⟩
    · have := hl.count
      refine ⟨by omega, .inr (by omega), fun h => absurd hl.snake (h l (by simp))⟩
    · refine ⟨by omega, ?_, fun h => by rw [i3 fun l hl => h l (by simp [hl])]⟩
      rcases i2 with i2 | i2
      · left
        intro k hk
        rcases List.mem_cons.mp hk with rfl | hk
        · exact hl
        · exact i2 k hk
      · right; omega

theorem _root_.Urn.SpecTools.Linewise.imp {P Q : Bytes → Bytes → Prop} {L L' : List Bytes} (h : Linewise P L L')
    (hi : ∀ l l', P l l' → Q l l') : Linewise Q L L' := by
  induction h with
  | nil => exact .nil
  | cons h _ ih => exact .cons (hi _ _ h) ih

theorem _root_.Urn.SpecTools.Linewise.comp {P Q R : Bytes → Bytes → Prop} {L L' L'' : List Bytes} (h : Linewise P L L')
    (h' : Linewise Q L' L'') (hi : ∀ l l' l'', P l l' → Q l' l'' → R l l'') : Linewise R L L'' := by
  induction h generalizing L'' with
  | nil => cases h'; exact .nil
  | cons h _ ih =>
    cases h' with
    | cons h1 h2 => exact .cons (hi _ _ _ h h1) (ih h2)

theorem linewise_refl {P : Bytes → Bytes → Prop} {L : List Bytes} (h : ∀ l ∈ L, P l l) : Linewise P L L := by
  induction L with
  | nil => exact .nil
  | cons l L ih => exact .cons (h l (by simp)) (ih fun k hk => h k (by simp [hk]))

theorem findAll_short {r : Re} {fuel : Nat} {prev : Option UInt8} {s : Bytes} :
    (r.findAll fuel prev s).2.length ≤ s.length ∧ ((r.findAll fuel prev s).1 ≠ [] → (r.findAll fuel prev s).2.length < s.length) := by
  induction fuel generalizing prev s with
  | zero => simp [Re.findAll]
  | succ fuel ih =>
    rw [Re.findAll]
    cases h : r.find prev s with
    | none => simp
    | some y =>
      obtain ⟨k, x⟩ := y
      have hs := find_split h
      by_cases hx : x.text = []
      · simp [hx]
      · simp only [if_neg hx]
        have := (ih (prev := x.text.getLast?) (s := x.rest)).1
        have h2 : 0 < x.text.length := List.length_pos_iff.mpr hx
        have h3 := congrArg List.length hs
        simp only [List.length_append] at h3
        omega

/-- A round of the loop. -/
theorem round {L : List Bytes} (h : IsLines L) :
    ∃ L' n, replaceAllStringSubmatchFunc snakeRegex L.flatten repl = (L'.flatten, n) ∧ IsLines L' ∧ Linewise Pass L L' ∧
      (n = 0 ↔ ∀ l ∈ L, ¬ HasSnake l) := by
  obtain ⟨L', h1, h2, h3, h4⟩ := pass_lines h none (Nat.lt_succ_self _)
  refine ⟨L', _, by rw [← h1]; rfl, h2, h3, ?_⟩
  rw [← h4]
  by_cases he : (snakeRegex.findAll (L.flatten.length + 1) none L.flatten).1 = []
  · simp only [he]; simp
  · have := findAll_short.2 he
    simp only [he, if_false, iff_false]
    omega

/-- All the steps that can be made. -/
def Done (l l' : Bytes) : Prop := Steps l l' ∧ ¬ HasSnake l'

theorem pass_done {l l' l'' : Bytes} (h : Pass l l') (h' : Done l' l'') : Done l l'' := by
  rcases h with h | ⟨_, rfl⟩
  · exact ⟨.step h h'.1, h'.2⟩
  · exact h'

theorem loop_done {fuel : Nat} {L : List Bytes} (h : IsLines L) (hf : L.flatten.count 95 + 2 ≤ fuel) {last : Int} (hl : last ≠ 0) :
    ∃ L', snakeLoop fuel L.flatten last = .ok L'.flatten ∧ IsLines L' ∧ Linewise Done L L' := by
  induction fuel generalizing L last with
  | zero => exact absurd hf (by omega)
  | succ fuel ih =>
    obtain ⟨L1, n, e, h1, h2, h3⟩ := round h
    rw [snakeLoop]
    simp only [if_pos hl, e]
    obtain ⟨c1, c2, c3⟩ := pass_count h2
    by_cases hn : n = 0
    · have hs := h3.mp hn
      have := c3 hs
      subst this
      cases fuel with
      | zero => exact absurd hf (by omega)
      | succ fuel =>
        rw [snakeLoop]
        simp only [hn]
        exact ⟨_, rfl, h, linewise_refl fun l hl => ⟨.refl, hs l hl⟩⟩
    · rcases c2 with c2 | c2
      · exact absurd (h3.mpr c2) hn
      · obtain ⟨L', g1, g2, g3⟩ := ih h1 (by omega) (last := n) (by omega)
        exact ⟨L', g1, g2, h2.comp g3 fun _ _ _ => pass_done⟩

theorem loop_mono {fuel k : Nat} {s r : Bytes} {last : Int} (h : snakeLoop fuel s last = .ok r) : snakeLoop (fuel + k) s last = .ok r := by
  induction fuel generalizing s last with
  | zero => exact absurd h (by simp [snakeLoop])
  | succ fuel ih =>
    rw [show fuel + 1 + k = (fuel + k) + 1 by omega]
    rw [snakeLoop] at h ⊢
    split at h
    · next hl => rw [if_pos hl]; exact ih h
    · next hl => rw [if_neg hl]; exact h

theorem snake2camel_done {fuel : Nat} {t : Bytes} (hf : t.count 95 + 2 ≤ fuel) :
    ∃ r, snake2camel fuel t = .ok r ∧ Linewise Done (lines t) (lines r) := by
  have := loop_done (fuel := fuel) (lines_isLines t) (by rw [lines_flatten]; exact hf) (last := -1) (by decide)
  obtain ⟨L', h1, h2, h3⟩ := this
  rw [lines_flatten] at h1
  exact ⟨L'.flatten, h1, by rw [lines_of h2]; exact h3⟩

/-! ## Steps -/

theorem step_unique {t u v : Bytes} (h1 : Step t u) (h2 : Step t v) : u = v := by
  obtain ⟨a, x, ds, y, b, s1, l1, rfl⟩ := h1
  obtain ⟨a', x', ds', y', b', s2, l2, rfl⟩ := h2
  have hl := Nat.le_antisymm (l1 _ _ _ _ _ s2) (l2 _ _ _ _ _ s1)
  have e : (a ++ x :: ds) ++ 95 :: y :: b = (a' ++ x' :: ds') ++ 95 :: y' :: b' := by
    have := s1.eq.symm.trans s2.eq
    simpa using this
  obtain ⟨e1, e2⟩ := List.append_inj' e (by simp [hl])
  simp only [List.cons.injEq, true_and] at e2
  have : (a ++ x :: ds) ++ upper y :: b = (a' ++ x' :: ds') ++ upper y' :: b' := by rw [e1, e2.1, e2.2]
  simpa using this

theorem done_unique {t u v : Bytes} (h1 : Done t u) (h2 : Done t v) : u = v := by
  obtain ⟨h1, n1⟩ := h1
  induction h1 with
  | refl =>
    obtain ⟨h2, _⟩ := h2
    cases h2 with
    | refl => rfl
    | step h _ => exact absurd h.snake n1
  | step h _ ih =>
    obtain ⟨h2, n2⟩ := h2
    cases h2 with
    | refl => exact absurd h.snake n2
    | step h' h'' =>
      obtain rfl := step_unique h h'
      exact ih ⟨h'', n2⟩ n1

theorem linewise_unique {L A B : List Bytes} (h1 : Linewise Done L A) (h2 : Linewise Done L B) : A = B := by
  induction h1 generalizing B with
  | nil => cases h2; rfl
  | cons h _ ih => cases h2 with
    | cons h' h'' => rw [done_unique h h', ih h'']

theorem squeezed_refl (t : Bytes) : Squeezed t t := by
  induction t with
  | nil => exact .nil
  | cons c t ih => exact .keep ih

theorem squeezed_append {a a' b b' : Bytes} (h : Squeezed a a') (h' : Squeezed b b') : Squeezed (a ++ b) (a' ++ b') := by
  induction h with
  | nil => exact h'
  | keep _ ih => exact .keep ih
  | drop hy _ ih => exact .drop hy ih

theorem squeezed_split {t w : Bytes} (h : Squeezed t w) {u : Bytes} {p : UInt8} {v : Bytes} (e : t = u ++ p :: v) (hp : p ≠ 95) :
    ∃ w1 w2, w = w1 ++ w2 ∧ Squeezed (u ++ [p]) w1 ∧ Squeezed v w2 := by
  induction h generalizing u with
  | nil => exact absurd e (by simp)
  | @keep c t t' h ih =>
    cases u with
    | nil =>
      simp only [List.nil_append, List.cons.injEq] at e
      obtain ⟨rfl, rfl⟩ := e
      exact ⟨[c], t', rfl, .keep .nil, h⟩
    | cons d u =>
      simp only [List.cons_append, List.cons.injEq] at e
      obtain ⟨rfl, e⟩ := e
      obtain ⟨w1, w2, rfl, h1, h2⟩ := ih e
      exact ⟨c :: w1, w2, rfl, .keep h1, h2⟩
  | @drop y t t' hy h ih =>
    cases u with
    | nil =>
      simp only [List.nil_append, List.cons.injEq] at e
      exact absurd e.1.symm hp
    | cons d u =>
      simp only [List.cons_append, List.cons.injEq] at e
      obtain ⟨rfl, e⟩ := e
      cases u with
      | nil =>
        simp only [List.nil_append, List.cons.injEq] at e
        obtain ⟨rfl, rfl⟩ := e
        exact ⟨[upper y], t', rfl, .drop hy .nil, h⟩
      | cons d u =>
        simp only [List.cons_append, List.cons.injEq] at e
        obtain ⟨rfl, e⟩ := e
        obtain ⟨w1, w2, rfl, h1, h2⟩ := ih e
        exact ⟨upper y :: w1, w2, rfl, .drop hy h1, h2⟩

theorem lower_ne : ∀ c, isLower c = true → c ≠ 95 := forall_byte (by decide +kernel)
theorem digit_ne : ∀ c, isDigit c = true → c ≠ 95 := forall_byte (by decide +kernel)

theorem step_squeezed {t t' w : Bytes} (h : Step t t') (h' : Squeezed t' w) : Squeezed t w := by
  obtain ⟨a, x, ds, y, b, hs, _, rfl⟩ := h
  have hu : upper y ≠ 95 := (upper_ne y hs.hy).2.1
  have finish : ∀ {v : Bytes}, Squeezed (upper y :: b) v → Squeezed (95 :: y :: b) v := by
    intro v hv
    generalize ho : upper y = o at hv hu
    cases hv with
    | keep h => rw [← ho]; exact .drop hs.hy h
    | drop _ _ => exact absurd rfl hu
  rw [hs.eq]
  rcases List.eq_nil_or_concat ds with rfl | ⟨ds, d, rfl⟩
  · obtain ⟨w1, w2, rfl, h1, h2⟩ := squeezed_split h' (u := a) (p := x) (v := upper y :: b) (by simp) (lower_ne x hs.hx)
    have := squeezed_append h1 (finish h2)
    simpa using this
  · have hd := hs.hds d (by simp)
    obtain ⟨w1, w2, rfl, h1, h2⟩ := squeezed_split h' (u := a ++ x :: ds) (p := d) (v := upper y :: b) (by simp) (digit_ne d hd)
    have := squeezed_append h1 (finish h2)
    simpa using this

theorem steps_squeezed {t t' : Bytes} (h : Steps t t') : Squeezed t t' := by
  induction h with
  | refl => exact squeezed_refl _
  | step h _ ih => exact step_squeezed h ih

theorem linewise_squeezed {L L' : List Bytes} (h : Linewise Done L L') : Squeezed L.flatten L'.flatten := by
  induction h with
  | nil => exact .nil
  | cons h _ ih => exact squeezed_append (steps_squeezed h.1) ih

theorem hasSnake_flatten {L : List Bytes} (h : IsLines L) : HasSnake L.flatten ↔ ∃ l ∈ L, HasSnake l := by
  constructor
  · rintro ⟨a, x, ds, y, b, hs⟩
    induction h generalizing a with
    | nil => exact absurd hs.eq (by simp)
    | @last l h1 h2 => exact ⟨l, by simp, a, x, ds, y, b, by simpa using hs.eq, hs.hx, hs.hds, hs.hy⟩
    | @cons l ls h1 h2 ih =>
      have e : l ++ 10 :: ls.flatten = a ++ x :: (ds ++ 95 :: y :: b) := by simpa using hs.eq
      rw [List.append_eq_append_iff] at e
      rcases e with ⟨k, rfl, e⟩ | ⟨k, rfl, e⟩
      · cases k with
        | nil =>
          simp only [List.nil_append, List.cons.injEq] at e
          exact absurd hs.hx (by rw [← e.1]; decide)
        | cons c k =>
          simp only [List.cons_append, List.cons.injEq] at e
          obtain ⟨l', hl', h⟩ := ih k ⟨e.2, hs.hx, hs.hds, hs.hy⟩
          exact ⟨l', by simp [hl'], h⟩
      · -- the word begins in the line
        have hno : 10 ∉ x :: (ds ++ [95, y]) := by
          intro hm
          simp only [List.mem_cons, List.mem_append, List.not_mem_nil, or_false] at hm
          rcases hm with rfl | hm | hm | rfl
          · exact absurd hs.hx (by decide)
          · exact absurd (hs.hds 10 hm) (by decide)
          · exact absurd hm (by decide)
          · exact absurd hs.hy (by decide)
        have e' : (x :: (ds ++ [95, y])) ++ b = k ++ 10 :: ls.flatten := by rw [← e]; simp
        rw [List.append_eq_append_iff] at e'
        rcases e' with ⟨m, rfl, e'⟩ | ⟨m, e0, e'⟩
        · refine ⟨_, by simp; left; rfl, a, x, ds, y, m ++ [10], by simp, hs.hx, hs.hds, hs.hy⟩
        · cases m with
          | nil => 
            rw [List.append_nil] at e0
            subst e0
            refine ⟨_, by simp; left; rfl, a, x, ds, y, [10], by simp, hs.hx, hs.hds, hs.hy⟩
          | cons c m =>
            simp only [List.cons_append, List.cons.injEq] at e'
            exact absurd (show (10 : UInt8) ∈ x :: (ds ++ [95, y]) by rw [e0]; simp [e'.1]) hno
  · rintro ⟨l, hl, a, x, ds, y, b, hs⟩
    obtain ⟨p, q, rfl⟩ := List.append_of_mem hl
    exact ⟨p.flatten ++ a, x, ds, y, b ++ q.flatten, by rw [List.flatten_append, List.flatten_cons, hs.eq]; simp, hs.hx, hs.hds, hs.hy⟩

end Urn.Tools
