import Verif.RegexRune
import Verif.RegexTextAux
import Verif.JsonAux
/-!
# Matching runes and matching bytes

The expressions of the tools match the same texts in the same way whether they go over the runes of the text or over its bytes.
Apart from `.` they only mention ASCII characters, and `.` is only used repeated, before something that begins with an ASCII
character or at the end.
-/
set_option autoImplicit false
set_option linter.unusedSimpArgs false
namespace Urn.Regex
open Tools

/-! ## The runes of a text -/

/-- A rune is an ASCII byte, or it has only other bytes. -/
def Rune.Ok (r : Rune) : Prop :=
  (∃ b : UInt8, b < 128 ∧ r.code = b.toNat ∧ r.bytes = [b]) ∨ (128 ≤ r.code ∧ r.bytes ≠ [] ∧ ∀ b ∈ r.bytes, ¬ b < 128)

theorem second_large {a b : UInt8} (h : Json.second a b = true) : ¬ b < 128 := by
  have : 128 ≤ b := by
    unfold Json.second at h
    revert h
    repeat' split
    all_goals simp only [Json.isCont, Bool.and_eq_true, decide_eq_true_eq]
    all_goals (rintro ⟨h, _⟩; first | exact h | exact UInt8.le_trans (by decide) h)
  exact UInt8.not_lt.2 this

theorem cont_large {b : UInt8} (h : Json.isCont b = true) : ¬ b < 128 := by
  simp only [Json.isCont, Bool.and_eq_true, decide_eq_true_eq] at h
  exact UInt8.not_lt.2 h.1

theorem rune_bytes {c : UInt8} (hc : ¬ c < 128) (w : Bytes) : ∀ b ∈ w.take ((Json.decodeRune c w).2 - 1), ¬ b < 128 := by
  unfold Json.decodeRune
  rw [if_neg hc]
  split
  · rcases w with _ | ⟨b, w⟩
    · simp
    · by_cases h : Json.second c b = true
      · have := second_large h
        simpa [h] using this
      · simp [h]
  · split
    · rcases w with _ | ⟨b, _ | ⟨d, w⟩⟩
      · simp
      · simp
      · by_cases h : (Json.second c b && Json.isCont d) = true
        · have h' := h
          simp only [Bool.and_eq_true] at h'
          have h1 := second_large h'.1
          have h2 := cont_large h'.2
          simp only [h, if_true, List.take_succ_cons, List.take_zero, List.mem_cons, List.not_mem_nil, or_false]
          rintro x (rfl | rfl) <;> assumption
        · simp [h]
    · split
      · rcases w with _ | ⟨b, _ | ⟨d, _ | ⟨e, w⟩⟩⟩
        · simp
        · simp
        · simp
        · by_cases h : (Json.second c b && Json.isCont d && Json.isCont e) = true
          · have h' := h
            simp only [Bool.and_eq_true] at h'
            have h1 := second_large h'.1.1
            have h2 := cont_large h'.1.2
            have h3 := cont_large h'.2
            simp only [h, if_true, List.take_succ_cons, List.take_zero, List.mem_cons, List.not_mem_nil, or_false]
            rintro x (rfl | rfl | rfl) <;> assumption
          · simp [h]
      · simp

theorem runes_ok (s : Bytes) : ∀ r ∈ runes s, r.Ok := by
  induction hn : s.length using Nat.strongRecOn generalizing s with
  | ind n ih =>
    subst hn
    cases s with
    | nil => simp [runes]
    | cons c t =>
      rw [runes]
      intro r hr
      rcases List.mem_cons.1 hr with rfl | hr
      · by_cases hc : c < 128
        · exact .inl ⟨c, hc, by simp [Json.decodeRune, hc]⟩
        · refine .inr ⟨(Json.rune_large hc t).1, by simp, ?_⟩
          intro b hb
          rcases List.mem_cons.1 hb with rfl | hb
          · exact hc
          · exact rune_bytes hc t b hb
      · exact ih _ (by simp only [List.length_drop, List.length_cons]; omega) _ rfl r hr

theorem flat_runes (s : Bytes) : flat (runes s) = s := by
  induction hn : s.length using Nat.strongRecOn generalizing s with
  | ind n ih =>
    subst hn
    cases s with
    | nil => simp [runes, flat]
    | cons c t =>
      rw [runes, flat, List.flatMap_cons]
      have := ih _ (by simp only [List.length_drop, List.length_cons]; omega) (t.drop ((Json.decodeRune c t).2 - 1)) rfl
      rw [flat] at this
      rw [this]
      simp

@[simp] theorem flat_nil : flat [] = [] := rfl
@[simp] theorem flat_cons (r : Rune) (rs : List Rune) : flat (r :: rs) = r.bytes ++ flat rs := by simp [flat]
@[simp] theorem flat_append (rs rs' : List Rune) : flat (rs ++ rs') = flat rs ++ flat rs' := by simp [flat]

theorem Rune.Ok.ne_nil {r : Rune} (h : r.Ok) : r.bytes ≠ [] := by
  rcases h with ⟨b, _, _, h⟩ | ⟨_, h, _⟩
  · rw [h]; simp
  · exact h

/-! ## Expressions on bytes -/

/-- The class, as a condition on bytes. -/
def Cls.byte (p : Cls) (c : UInt8) : Bool := p.has c.toNat

/-- The expression on bytes. -/
def Rx.toRe : Rx → Re
  | .cls p => .cls p.byte
  | .star p => .star p.byte
  | .opt p => .opt p.byte
  | .bol => .bol
  | .eol => .eol
  | .seq a b => .seq a.toRe b.toRe
  | .cap a => .cap a.toRe

/-- Only ASCII characters. -/
def Cls.ascii : Cls → Bool
  | .any => false
  | .char n => n < 128
  | .ranges rs => rs.all fun r => r.2 < 128

theorem Cls.ascii_has {p : Cls} (h : p.ascii = true) {n : Nat} (hn : 128 ≤ n) : p.has n = false := by
  cases p with
  | any => simp [Cls.ascii] at h
  | char m => simp [Cls.ascii, Cls.has] at *; omega
  | ranges rs =>
    simp only [Cls.ascii, List.all_eq_true, decide_eq_true_eq] at h
    simp only [Cls.has, List.any_eq_false, Bool.and_eq_true, decide_eq_true_eq, not_and, Nat.not_le]
    intro r hr _
    exact Nat.lt_of_lt_of_le (h r hr) hn

theorem large_toNat {b : UInt8} (h : ¬ b < 128) : 128 ≤ b.toNat := by
  rw [UInt8.lt_iff_toNat_lt] at h; exact Nat.le_of_not_lt h

theorem Cls.ascii_byte {p : Cls} (h : p.ascii = true) {b : UInt8} (hb : ¬ b < 128) : p.byte b = false :=
  Cls.ascii_has h (large_toNat hb)

/-- All classes have only ASCII characters. -/
def Rx.ascii : Rx → Bool
  | .cls p => p.ascii
  | .star p => p.ascii
  | .opt p => p.ascii
  | .bol => true
  | .eol => true
  | .seq a b => a.ascii && b.ascii
  | .cap a => a.ascii

/-- What is matched begins with an ASCII character, or nothing follows. -/
def Rx.starts : Rx → Bool
  | .cls p => p.ascii
  | .star _ => false
  | .opt _ => false
  | .bol => false
  | .eol => true
  | .seq a _ => a.starts
  | .cap a => a.starts

/-- `.` is only used repeated, before something that begins with an ASCII character or at the end. -/
def Rx.good : Rx → Bool
  | .cls p => p.ascii
  | .star p => p.ascii || match p with | .any => true | _ => false
  | .opt p => p.ascii
  | .bol => true
  | .eol => true
  | .seq a b => (a.ascii || (a.good && b.starts)) && b.good
  | .cap a => a.good

/-- A way on runes, as a way on bytes. -/
def Way.place (w : Way) : Place := ⟨flat w.text, flat w.rest, w.groups⟩

/-- The byte before. -/
def lastByte (prev : Option Rune) : Option UInt8 := prev.bind fun r => r.bytes.getLast?

theorem lastByte_or {rs : List Rune} (h : ∀ r ∈ rs, r.Ok) (prev : Option Rune) :
    lastByte (rs.getLast?.or prev) = (flat rs).getLast?.or (lastByte prev) := by
  rcases List.eq_nil_or_concat rs with rfl | ⟨rs, r, rfl⟩
  · simp
  · have hr := (h r (by simp)).ne_nil
    simp only [List.getLast?_append, List.getLast?_singleton, Option.some_or, flat_append, flat_cons, flat_nil, List.append_nil,
      lastByte, Option.bind_some]
    cases hb : r.bytes.getLast? with
    | none => exact absurd (List.getLast?_eq_none_iff.1 hb) hr
    | some b => simp [List.concat_eq_append, List.getLast?_append, hb]

theorem runI_starts {r : Rx} (h : r.starts = true) (o : Nat) (prev : Option UInt8) {c : UInt8} (hc : ¬ c < 128) (t : Bytes) :
    r.toRe.runI o prev (c :: t) = [] := by
  induction r with
  | cls p => simp [Rx.toRe, Re.runI, Cls.ascii_byte h hc]
  | star p => cases h
  | opt p => cases h
  | bol => cases h
  | eol =>
    have : ¬ c = 10 := by rintro rfl; exact hc (by decide)
    simp [Rx.toRe, Re.runI, this]
  | seq a b iha _ => simp only [Rx.toRe, Re.runI]; rw [iha h]; rfl
  | cap a ih => simp only [Rx.toRe, Re.runI]; rw [ih h]; rfl

/-! ## The ways to match -/

theorem runs_split {p : Cls} {rs : List Rune} : ∀ x ∈ p.runs rs, x.1 ++ x.2 = rs := by
  induction rs with
  | nil => simp [Cls.runs]
  | cons c t ih =>
    intro x hx
    simp only [Cls.runs] at hx
    split at hx
    · rcases List.mem_append.1 hx with hx | hx
      · obtain ⟨y, hy, rfl⟩ := List.mem_map.1 hx
        simp [ih y hy]
      · rw [List.mem_singleton.1 hx]; rfl
    · rw [List.mem_singleton.1 hx]; rfl

theorem rx_split {r : Rx} {o : Nat} {prev : Option Rune} {rs : List Rune} : ∀ x ∈ r.run o prev rs, x.text ++ x.rest = rs := by
  induction r generalizing o prev rs with
  | cls p =>
    intro x hx
    cases rs with
    | nil => simp [Rx.run] at hx
    | cons c t =>
      simp only [Rx.run] at hx
      split at hx
      · rw [List.mem_singleton.1 hx]; rfl
      · simp at hx
  | star p =>
    intro x hx
    obtain ⟨y, hy, rfl⟩ := List.mem_map.1 hx
    exact runs_split y hy
  | opt p =>
    intro x hx
    cases rs with
    | nil => simp [Rx.run] at hx; subst hx; rfl
    | cons c t =>
      simp only [Rx.run] at hx
      split at hx
      · simp at hx; rcases hx with rfl | rfl <;> rfl
      · rw [List.mem_singleton.1 hx]; rfl
  | bol =>
    intro x hx
    simp only [Rx.run] at hx
    split at hx
    · rw [List.mem_singleton.1 hx]; rfl
    · simp at hx
  | eol =>
    intro x hx
    simp only [Rx.run] at hx
    split at hx
    · rw [List.mem_singleton.1 hx]; rfl
    · simp at hx
  | seq a b iha ihb =>
    intro x hx
    simp only [Rx.run, List.mem_flatMap, List.mem_map] at hx
    obtain ⟨y, hy, z, hz, rfl⟩ := hx
    rw [← iha y hy, ← ihb z hz]; simp
  | cap a ih =>
    intro x hx
    simp only [Rx.run, List.mem_map] at hx
    obtain ⟨y, hy, rfl⟩ := hx
    exact ih y hy

/-- The ways on runes are those on bytes that end where a rune ends; the others are followed by a byte that is not ASCII. -/
inductive Match : List Way → List Place → Prop where
  | nil : Match [] []
  | keep {w : Way} {ws : List Way} {xs : List Place} : Match ws xs → Match (w :: ws) (w.place :: xs)
  | skip {ws : List Way} {xs : List Place} {x : Place} : (∃ c t, x.rest = c :: t ∧ ¬ c < 128) → Match ws xs → Match ws (x :: xs)

theorem Match.append {ws ws' : List Way} {xs xs' : List Place} (h : Match ws xs) (h' : Match ws' xs') :
    Match (ws ++ ws') (xs ++ xs') := by
  induction h with
  | nil => exact h'
  | keep _ ih => exact .keep ih
  | skip hx _ ih => exact .skip hx ih

/-- And the preferred way is the same. -/
structure Agree (ws : List Way) (xs : List Place) : Prop where
  all : Match ws xs
  head : ws.head?.map Way.place = xs.head?

theorem Agree.append {ws ws' : List Way} {xs xs' : List Place} (h : Agree ws xs) (h' : Agree ws' xs') :
    Agree (ws ++ ws') (xs ++ xs') := by
  refine ⟨h.all.append h'.all, ?_⟩
  have h1 := h.head
  cases ws with
  | nil =>
    cases xs with
    | nil => exact h'.head
    | cons x xs => simp at h1
  | cons w ws =>
    cases xs with
    | nil => simp at h1
    | cons x xs => simpa using h1

theorem Agree.of_map (ws : List Way) : Agree ws (ws.map Way.place) := by
  refine ⟨?_, by cases ws <;> simp⟩
  induction ws with
  | nil => exact .nil
  | cons w ws ih => exact .keep ih

theorem Agree.of_eq {ws : List Way} {xs : List Place} (h : ws.map Way.place = xs) : Agree ws xs := h ▸ .of_map ws

theorem Agree.nil : Agree [] [] := .of_map []

/-- Ways that are all continued in the same manner. -/
theorem Agree.map {ws : List Way} {xs : List Place} {f : Way → Way} {g : Place → Place} (h : Agree ws xs)
    (hf : ∀ w ∈ ws, (f w).place = g w.place) (hg : ∀ x, (g x).rest = x.rest) : Agree (ws.map f) (xs.map g) := by
  constructor
  · have := h.all
    clear h
    induction this with
    | nil => exact .nil
    | @keep w ws xs _ ih =>
      rw [List.map_cons, List.map_cons, ← hf w (by simp)]
      exact .keep (ih fun w hw => hf w (by simp [hw]))
    | @skip ws xs x hx _ ih =>
      rw [List.map_cons]
      exact .skip (by rw [hg]; exact hx) (ih hf)
  · have h1 := h.head
    cases ws with
    | nil =>
      cases xs with
      | nil => rfl
      | cons x xs => simp at h1
    | cons w ws =>
      cases xs with
      | nil => simp at h1
      | cons x xs =>
        simp only [List.head?_cons, Option.map_some, Option.some.injEq, List.map_cons] at h1 ⊢
        rw [hf w (by simp), h1]

/-- A class of ASCII characters, repeated. -/
theorem runs_ascii {p : Cls} (hp : p.ascii = true) {rs : List Rune} (hr : ∀ r ∈ rs, r.Ok) :
    (p.runs rs).map (fun x => (flat x.1, flat x.2)) = starRuns p.byte (flat rs) := by
  induction rs with
  | nil => rfl
  | cons c t ih =>
    have ih := ih fun r h => hr r (by simp [h])
    rcases hr c (by simp) with ⟨b, hb, hc, hbs⟩ | ⟨hc, hn, hbs⟩
    · simp only [Cls.runs, flat_cons, hbs, List.cons_append, List.nil_append, starRuns, Cls.byte, hc]
      by_cases h : p.has b.toNat = true
      · simp only [h, if_true, List.map_append, List.map_map, List.map_cons, List.map_nil]
        rw [← ih]
        simp [Function.comp, hbs]
      · simp [h, hbs]
    · obtain ⟨b, bs, he⟩ : ∃ b bs, c.bytes = b :: bs := by
        cases h : c.bytes with
        | nil => exact absurd h hn
        | cons b bs => exact ⟨b, bs, rfl⟩
      have hb : ¬ b < 128 := hbs b (by simp [he])
      simp [Cls.runs, Cls.ascii_has hp hc, he, starRuns, Cls.ascii_byte hp hb]

theorem head_runs (p : Cls) (rs : List Rune) : ∃ x xs, p.runs rs = x :: xs := by
  induction rs with
  | nil => exact ⟨_, _, rfl⟩
  | cons c t ih =>
    obtain ⟨x, xs, h⟩ := ih
    simp only [Cls.runs]
    split
    · rw [h]; exact ⟨_, _, rfl⟩
    · exact ⟨_, _, rfl⟩

theorem dot_large {b : UInt8} (h : ¬ b < 128) : Cls.any.byte b = true := by
  have := large_toNat h
  simp [Cls.byte, Cls.has]; omega

/-- `.*` on bytes that are not ASCII. -/
theorem starRuns_large {bs : Bytes} (hb : ∀ b ∈ bs, ¬ b < 128) (hn : bs ≠ []) (t : Bytes) : ∃ mid,
    starRuns Cls.any.byte (bs ++ t) = (starRuns Cls.any.byte t).map (fun x => (bs ++ x.1, x.2)) ++ mid ++ [([], bs ++ t)] ∧
    ∀ x ∈ mid, ∃ c u, x.2 = c :: u ∧ ¬ c < 128 := by
  induction bs with
  | nil => exact absurd rfl hn
  | cons b bs ih =>
    have h := dot_large (hb b (by simp))
    cases bs with
    | nil => exact ⟨[], by simp [starRuns, h], by simp⟩
    | cons b' bs =>
      obtain ⟨mid, e, hm⟩ := ih (fun b hb' => hb b (by simp only [List.mem_cons] at hb' ⊢; exact .inr hb')) (by simp)
      refine ⟨mid.map (fun x => (b :: x.1, x.2)) ++ [([b], b' :: bs ++ t)], ?_, ?_⟩
      · rw [List.cons_append, starRuns, if_pos h, e]
        simp [Function.comp]
      · intro x hx
        rcases List.mem_append.1 hx with hx | hx
        · obtain ⟨y, hy, rfl⟩ := List.mem_map.1 hx
          exact hm y hy
        · rw [List.mem_singleton.1 hx]
          exact ⟨b', bs ++ t, rfl, hb b' (by simp)⟩

/-- `.*` -/
theorem runs_dot {rs : List Rune} (hr : ∀ r ∈ rs, r.Ok) :
    Agree ((Cls.any.runs rs).map fun x => ⟨x.1, x.2, []⟩) ((starRuns Cls.any.byte (flat rs)).map fun x => ⟨x.1, x.2, []⟩) := by
  induction rs with
  | nil => exact .of_map [⟨[], [], []⟩]
  | cons c t ih =>
    have ih := ih fun r h => hr r (by simp [h])
    have hm : Agree (((Cls.any.runs t).map fun x => (⟨x.1, x.2, []⟩ : Way)).map fun w => ⟨c :: w.text, w.rest, w.groups⟩)
        (((starRuns Cls.any.byte (flat t)).map fun x => (⟨x.1, x.2, []⟩ : Place)).map fun x =>
          ⟨c.bytes ++ x.text, x.rest, x.groups⟩) :=
      ih.map (by intro w _; simp [Way.place]) (by intro x; rfl)
    rcases hr c (by simp) with ⟨b, hb, hc, hbs⟩ | ⟨hc, hn, hbs⟩
    · simp only [Cls.runs, flat_cons, hbs, List.cons_append, List.nil_append, starRuns, Cls.byte, hc]
      by_cases h : Cls.any.has b.toNat = true
      · simp only [h, if_true, List.map_append]
        refine .append ?_ (.of_eq (by simp [Way.place, hbs]))
        rw [List.map_map, List.map_map] at hm ⊢
        rw [hbs] at hm
        exact hm
      · simp only [h, Bool.false_eq_true, if_false]
        exact .of_eq (by simp [Way.place, hbs])
    · have h : Cls.any.has c.code = true := by simp [Cls.has]; omega
      obtain ⟨mid, e, hmid⟩ := starRuns_large hbs hn (flat t)
      simp only [Cls.runs, h, if_true, flat_cons, e, List.map_append, List.append_assoc]
      have hm' : Agree (((Cls.any.runs t).map fun x => (c :: x.1, x.2)).map fun x => (⟨x.1, x.2, []⟩ : Way))
          (((starRuns Cls.any.byte (flat t)).map fun x => (c.bytes ++ x.1, x.2)).map fun x => (⟨x.1, x.2, []⟩ : Place)) := by
        rw [List.map_map, List.map_map] at hm ⊢
        exact hm
      constructor
      · refine hm'.all.append ?_
        have he : Match (([([], c :: t)] : List (List Rune × List Rune)).map fun x => (⟨x.1, x.2, []⟩ : Way))
            (([([], c.bytes ++ flat t)] : List (Bytes × Bytes)).map fun x => (⟨x.1, x.2, []⟩ : Place)) :=
          (Agree.of_eq (by simp [Way.place])).all
        clear e
        induction mid with
        | nil => exact he
        | cons x mid ih2 =>
          exact .skip (hmid x (by simp)) (ih2 fun y hy => hmid y (by simp [hy]))
      · have h1 := hm'.head
        obtain ⟨x, xs, hx⟩ := head_runs Cls.any t
        rw [hx] at h1 ⊢
        simp only [List.map_cons, List.head?_cons, Option.map_some, List.cons_append] at h1 ⊢
        rw [h1]
        cases hy : starRuns Cls.any.byte (flat t) with
        | nil => rw [hy] at h1; simp at h1
        | cons y ys => simp

theorem suffix_ok {ts us rs : List Rune} (e : ts ++ us = rs) (hr : ∀ r ∈ rs, r.Ok) : (∀ r ∈ ts, r.Ok) ∧ ∀ r ∈ us, r.Ok := by
  subst e
  exact ⟨fun r h => hr r (by simp [h]), fun r h => hr r (by simp [h])⟩

theorem flatMap_same {α β : Type} {l : List α} {f g : α → List β} (h : ∀ x ∈ l, f x = g x) : l.flatMap f = l.flatMap g := by
  induction l with
  | nil => rfl
  | cons a l ih => rw [List.flatMap_cons, List.flatMap_cons, h a (by simp), ih fun x hx => h x (by simp [hx])]

/-- An expression of ASCII characters. -/
theorem run_ascii {r : Rx} (h : r.ascii = true) (o : Nat) {prev : Option Rune} (hp : ∀ r, prev = some r → r.Ok) {rs : List Rune}
    (hr : ∀ r ∈ rs, r.Ok) : (r.run o prev rs).map Way.place = r.toRe.runI o (lastByte prev) (flat rs) := by
  induction r generalizing o prev rs with
  | cls p =>
    cases rs with
    | nil => rfl
    | cons c t =>
      rcases hr c (by simp) with ⟨b, hb, hc, hbs⟩ | ⟨hc, hn, hbs⟩
      · simp only [Rx.run, Rx.toRe, flat_cons, hbs, List.cons_append, List.nil_append, Re.runI, hc, Cls.byte]
        by_cases h' : p.has b.toNat = true <;> simp [Way.place, hbs, h']
      · obtain ⟨b, bs, he⟩ : ∃ b bs, c.bytes = b :: bs := by
          cases h : c.bytes with
          | nil => exact absurd h hn
          | cons b bs => exact ⟨b, bs, rfl⟩
        have hb : ¬ b < 128 := hbs b (by simp [he])
        simp [Rx.run, Cls.ascii_has h hc, he, Rx.toRe, Re.runI, Cls.ascii_byte h hb]
  | star p =>
    simp only [Rx.run, Rx.toRe, Re.runI]
    rw [← runs_ascii h hr]
    simp [Function.comp, Way.place]
  | opt p =>
    cases rs with
    | nil => rfl
    | cons c t =>
      rcases hr c (by simp) with ⟨b, hb, hc, hbs⟩ | ⟨hc, hn, hbs⟩
      · simp only [Rx.run, Rx.toRe, flat_cons, hbs, List.cons_append, List.nil_append, Re.runI, hc, Cls.byte]
        by_cases h' : p.has b.toNat = true <;> simp [Way.place, hbs, h']
      · obtain ⟨b, bs, he⟩ : ∃ b bs, c.bytes = b :: bs := by
          cases h : c.bytes with
          | nil => exact absurd h hn
          | cons b bs => exact ⟨b, bs, rfl⟩
        have hb : ¬ b < 128 := hbs b (by simp [he])
        simp [Rx.run, Cls.ascii_has h hc, he, Rx.toRe, Re.runI, Cls.ascii_byte h hb, Way.place]
  | bol =>
    simp only [Rx.run, Rx.toRe, Re.runI]
    have : prev.all (fun c => c.code == 10) = true ↔ (lastByte prev = none ∨ lastByte prev = some 10) := by
      cases prev with
      | none => simp [lastByte]
      | some r =>
        rcases hp r rfl with ⟨b, hb, hc, hbs⟩ | ⟨hc, hn, hbs⟩
        · simp only [Option.all_some, beq_iff_eq, lastByte, Option.bind_some, hbs, List.getLast?_singleton, hc, Option.some.injEq,
            reduceCtorEq, false_or]
          exact ⟨fun h => UInt8.toNat_inj.1 h, fun h => by rw [h]; rfl⟩
        · simp only [Option.all_some, beq_iff_eq, lastByte, Option.bind_some]
          constructor
          · intro h; omega
          · rintro (h | h)
            · exact absurd (List.getLast?_eq_none_iff.1 h) hn
            · exact absurd (hbs 10 (List.mem_of_getLast? h)) (by decide)
    by_cases h1 : prev.all (fun c => c.code == 10) = true
    · rw [if_pos h1, if_pos (this.1 h1)]; rfl
    · rw [if_neg h1, if_neg (fun h2 => h1 (this.2 h2))]; rfl
  | eol =>
    simp only [Rx.run, Rx.toRe, Re.runI]
    have : rs.head?.all (fun c => c.code == 10) = true ↔ (flat rs = [] ∨ (flat rs).head? = some 10) := by
      cases rs with
      | nil => simp
      | cons r rs =>
        rcases hr r (by simp) with ⟨b, hb, hc, hbs⟩ | ⟨hc, hn, hbs⟩
        · simp only [List.head?_cons, Option.all_some, beq_iff_eq, hc, flat_cons, hbs, List.cons_append, reduceCtorEq, false_or,
            Option.some.injEq]
          exact ⟨fun h => UInt8.toNat_inj.1 h, fun h => by rw [h]; rfl⟩
        · obtain ⟨b, bs, he⟩ : ∃ b bs, r.bytes = b :: bs := by
            cases h : r.bytes with
            | nil => exact absurd h hn
            | cons b bs => exact ⟨b, bs, rfl⟩
          have hb : ¬ b < 128 := hbs b (by simp [he])
          simp only [List.head?_cons, Option.all_some, beq_iff_eq, flat_cons, he, List.cons_append, reduceCtorEq, false_or,
            Option.some.injEq]
          exact ⟨fun h => by omega, by rintro rfl; exact absurd (by decide) hb⟩
    by_cases h1 : rs.head?.all (fun c => c.code == 10) = true
    · rw [if_pos h1, if_pos (this.1 h1)]; rfl
    · rw [if_neg h1, if_neg (fun h2 => h1 (this.2 h2))]; rfl
  | seq a b iha ihb =>
    simp only [Rx.ascii, Bool.and_eq_true] at h
    simp only [Rx.run, Rx.toRe, Re.runI]
    rw [← iha h.1 o hp hr, List.map_flatMap, List.flatMap_map]
    apply flatMap_same
    intro x hx
    obtain ⟨h1, h2⟩ := suffix_ok (rx_split x hx) hr
    have := ihb h.2 (o + (flat x.text).length) (prev := x.text.getLast?.or prev) (by
      intro r hr'
      rw [Option.or_eq_some_iff] at hr'
      rcases hr' with hr' | ⟨_, hr'⟩
      · exact h1 r (List.mem_of_getLast? hr')
      · exact hp r hr') h2
    rw [lastByte_or h1] at this
    simp only [Way.place]
    rw [← this]
    simp [Function.comp, Way.place]
  | cap a ih =>
    simp only [Rx.run, Rx.toRe, Re.runI]
    rw [← ih h o hp hr]
    simp [Function.comp, Way.place]

/-- The expressions in question. -/
theorem run_agree {r : Rx} (h : r.good = true) (o : Nat) {prev : Option Rune} (hp : ∀ r, prev = some r → r.Ok) {rs : List Rune}
    (hr : ∀ r ∈ rs, r.Ok) : Agree (r.run o prev rs) (r.toRe.runI o (lastByte prev) (flat rs)) := by
  induction r generalizing o prev rs with
  | cls p => exact .of_eq (run_ascii (r := .cls p) h o hp hr)
  | star p =>
    simp only [Rx.good, Bool.or_eq_true] at h
    rcases h with h | h
    · exact .of_eq (run_ascii (r := .star p) h o hp hr)
    · cases p with
      | any => exact runs_dot hr
      | char n => simp at h
      | ranges l => simp at h
  | opt p => exact .of_eq (run_ascii (r := .opt p) h o hp hr)
  | bol => exact .of_eq (run_ascii rfl o hp hr)
  | eol => exact .of_eq (run_ascii rfl o hp hr)
  | seq a b iha ihb =>
    simp only [Rx.good, Bool.and_eq_true, Bool.or_eq_true] at h
    obtain ⟨ha, hb⟩ := h
    have next (x : Way) (hx : x ∈ a.run o prev rs) : Agree
        ((b.run (o + (flat x.text).length) (x.text.getLast?.or prev) x.rest).map fun y =>
          ⟨x.text ++ y.text, y.rest, x.groups ++ y.groups⟩)
        ((b.toRe.runI (o + x.place.text.length) (x.place.text.getLast?.or (lastByte prev)) x.place.rest).map fun y =>
          ⟨x.place.text ++ y.text, y.rest, x.place.groups ++ y.groups⟩) := by
      obtain ⟨h1, h2⟩ := suffix_ok (rx_split x hx) hr
      have := ihb hb (o + (flat x.text).length) (prev := x.text.getLast?.or prev) (by
        intro r hr'
        rw [Option.or_eq_some_iff] at hr'
        rcases hr' with hr' | ⟨_, hr'⟩
        · exact h1 r (List.mem_of_getLast? hr')
        · exact hp r hr') h2
      rw [lastByte_or h1] at this
      exact this.map (by intro w _; simp [Way.place]) (by intro y; rfl)
    simp only [Rx.run, Rx.toRe, Re.runI]
    have main (hm : Match (a.run o prev rs) (a.toRe.runI o (lastByte prev) (flat rs)))
        (hs : b.starts = true ∨ (a.run o prev rs).map Way.place = a.toRe.runI o (lastByte prev) (flat rs)) :
        Agree ((a.run o prev rs).flatMap fun x =>
          (b.run (o + (flat x.text).length) (x.text.getLast?.or prev) x.rest).map fun y =>
            ⟨x.text ++ y.text, y.rest, x.groups ++ y.groups⟩)
          ((a.toRe.runI o (lastByte prev) (flat rs)).flatMap fun x =>
            (b.toRe.runI (o + x.text.length) (x.text.getLast?.or (lastByte prev)) x.rest).map fun y =>
              ⟨x.text ++ y.text, y.rest, x.groups ++ y.groups⟩) := by
      revert next hm hs
      generalize a.run o prev rs = ws
      generalize a.toRe.runI o (lastByte prev) (flat rs) = xs
      intro next hm hs
      rcases hs with hs | hs
      · induction hm with
        | nil => exact .nil
        | @keep w ws xs _ ih =>
          rw [List.flatMap_cons, List.flatMap_cons]
          exact .append (next w (by simp)) (ih fun x hx => next x (by simp [hx]))
        | @skip ws xs x hx _ ih =>
          obtain ⟨c, t, e, hc⟩ := hx
          rw [List.flatMap_cons (xs := xs), e, runI_starts hs _ _ hc]
          exact ih next
      · subst hs
        clear hm
        induction ws with
        | nil => exact .nil
        | cons w ws ih =>
          rw [List.map_cons, List.flatMap_cons, List.flatMap_cons]
          exact .append (next w (by simp)) (ih fun x hx => next x (by simp [hx]))
    rcases ha with ha | ⟨ha, hs⟩
    · exact main (Agree.of_eq (run_ascii ha o hp hr)).all (.inr (run_ascii ha o hp hr))
    · exact main (iha ha o hp hr).all (.inl hs)
  | cap a ih =>
    simp only [Rx.run, Rx.toRe, Re.runI]
    exact (ih h o hp hr).map (by intro w _; simp [Way.place]) (by intro y; rfl)

/-! ## The leftmost match -/

/-- No match begins within a rune, if none begins where it begins: the expression begins with `^` or `(.*)`. -/
def Rx.startOk : Rx → Bool
  | .seq .bol _ => true
  | .seq (.cap (.star .any)) _ => true
  | _ => false

theorem skip_mid {r : Rx} (h : r.startOk = true) {o : Nat} {prev : Option UInt8} {c : UInt8} (hc : ¬ c < 128) {t : Bytes}
    (h0 : r.toRe.runI o prev (c :: t) = []) : r.toRe.runI (o + 1) (some c) t = [] := by
  unfold Rx.startOk at h
  split at h
  · have : ¬ c = 10 := by rintro rfl; exact hc (by decide)
    simp [Rx.toRe, Re.runI, this]
  · simp only [Rx.toRe, Re.runI, starRuns, dot_large hc, if_true, List.map_append, List.map_map, List.flatMap_append,
      List.append_eq_nil_iff, List.flatMap_eq_nil_iff, List.mem_map, List.map_eq_nil_iff] at h0 ⊢
    rintro x ⟨y, hy, rfl⟩
    have := h0.1 _ ⟨y, hy, rfl⟩
    simp only [Function.comp] at this ⊢
    have e : (c :: y.1).getLast?.or prev = y.1.getLast?.or (some c) := by
      cases hy : y.1.getLast? with
      | none => rw [List.getLast?_eq_none_iff.1 hy]; simp
      | some d => rw [List.getLast?_cons, hy]; simp
    rw [e] at this
    rw [← this]
    congr 1
    simp only [List.length_cons]
    omega
  · cases h

theorem find_mid {r : Rx} (h : r.startOk = true) {o : Nat} {prev : Option UInt8} {bs : Bytes} (hb : ∀ b ∈ bs, ¬ b < 128) {t : Bytes}
    (h0 : r.toRe.runI o prev (bs ++ t) = []) :
    r.toRe.findI o prev (bs ++ t) = r.toRe.findI (o + bs.length) (bs.getLast?.or prev) t := by
  induction bs generalizing o prev with
  | nil => simp
  | cons b bs ih =>
    rw [List.cons_append] at h0 ⊢
    rw [Re.findI, h0]
    simp only [List.head?_nil]
    rw [ih (fun b' h => hb b' (by simp [h])) (skip_mid h (hb b (by simp)) h0)]
    have e : (b :: bs).getLast?.or prev = bs.getLast?.or (some b) := by
      cases hy : bs.getLast? with
      | none => rw [List.getLast?_eq_none_iff.1 hy]; simp
      | some d => rw [List.getLast?_cons, hy]; simp
    rw [e, List.length_cons, Nat.add_assoc, Nat.add_comm 1]

theorem find_agree {r : Rx} (hg : r.good = true) (hs : r.startOk = true) (o : Nat) {prev : Option Rune}
    (hp : ∀ r, prev = some r → r.Ok) {rs : List Rune} (hr : ∀ r ∈ rs, r.Ok) :
    r.toRe.findI o (lastByte prev) (flat rs) = (r.find o prev rs).map fun x => (x.1, x.2.2.place) := by
  induction rs generalizing o prev with
  | nil =>
    have := (run_agree hg o hp hr).head
    rw [Re.findI.eq_def, Rx.find, ← this]
    cases (r.run o prev []).head? <;> simp
  | cons c t ih =>
    have h0 := (run_agree hg o hp hr).head
    rw [Rx.find]
    cases hh : (r.run o prev (c :: t)).head? with
    | some x =>
      rw [hh] at h0
      rw [Re.findI.eq_def, ← h0]
      simp
    | none =>
      rw [hh] at h0
      have hn : r.toRe.runI o (lastByte prev) (flat (c :: t)) = [] := List.head?_eq_none_iff.1 h0.symm
      have ih := ih (o + c.bytes.length) (prev := some c) (by intro r h; cases h; exact hr c (by simp)) (fun r h => hr r (by simp [h]))
      simp only
      rw [← ih]
      rcases hr c (by simp) with ⟨b, hb, hc, hbs⟩ | ⟨hc, hbn, hbs⟩
      · rw [flat_cons, hbs, List.cons_append, List.nil_append] at hn ⊢
        rw [Re.findI, hn]
        simp [lastByte, hbs]
      · rw [flat_cons] at hn ⊢
        rw [find_mid hs hbs hn]
        congr 1
        simp only [lastByte, Option.bind_some]
        cases hy : c.bytes.getLast? with
        | none => exact absurd (List.getLast?_eq_none_iff.1 hy) hbn
        | some d => simp

theorem rx_find_split {r : Rx} {o : Nat} {prev : Option Rune} {rs : List Rune} {i : Nat} {before : Option Rune} {x : Way}
    (h : r.find o prev rs = some (i, before, x)) : o ≤ i ∧ x ∈ r.run i before (x.text ++ x.rest) ∧ ∃ us, rs = us ++ (x.text ++ x.rest) := by
  induction rs generalizing o prev with
  | nil =>
    rw [Rx.find] at h
    cases hh : (r.run o prev []).head? with
    | none => rw [hh] at h; cases h
    | some y =>
      rw [hh] at h
      cases h
      have hm := List.mem_of_head? hh
      have e := rx_split _ hm
      exact ⟨Nat.le_refl _, by rw [e]; exact hm, [], by rw [e]; rfl⟩
  | cons c t ih =>
    rw [Rx.find] at h
    cases hh : (r.run o prev (c :: t)).head? with
    | none =>
      rw [hh] at h
      obtain ⟨h1, h2, us, e⟩ := ih h
      exact ⟨by omega, h2, c :: us, by rw [e]; rfl⟩
    | some y =>
      rw [hh] at h
      cases h
      have hm := List.mem_of_head? hh
      have e := rx_split _ hm
      exact ⟨Nat.le_refl _, by rw [e]; exact hm, [], by rw [e]; rfl⟩

/-! ## All matches -/

/-- No match is empty. -/
def Rx.eats : Rx → Bool
  | .cls _ => true
  | .seq a b => a.eats || b.eats
  | .cap a => a.eats
  | _ => false

theorem eats_text {r : Rx} (h : r.eats = true) {o : Nat} {prev : Option Rune} {rs : List Rune} :
    ∀ x ∈ r.run o prev rs, x.text ≠ [] := by
  induction r generalizing o prev rs with
  | cls p =>
    intro x hx
    cases rs with
    | nil => simp [Rx.run] at hx
    | cons c t =>
      simp only [Rx.run] at hx
      split at hx
      · rw [List.mem_singleton.1 hx]; simp
      · simp at hx
  | star p => cases h
  | opt p => cases h
  | bol => cases h
  | eol => cases h
  | seq a b iha ihb =>
    intro x hx
    simp only [Rx.run, List.mem_flatMap, List.mem_map] at hx
    obtain ⟨y, hy, z, hz, rfl⟩ := hx
    simp only [Rx.eats, Bool.or_eq_true] at h
    rcases h with h | h
    · simp [iha h y hy]
    · simp [ihb h z hz]
  | cap a ih =>
    intro x hx
    simp only [Rx.run, List.mem_map] at hx
    obtain ⟨y, hy, rfl⟩ := hx
    exact ih h y hy

theorem flat_ne_nil {rs : List Rune} (hr : ∀ r ∈ rs, r.Ok) (hn : rs ≠ []) : flat rs ≠ [] := by
  cases rs with
  | nil => exact absurd rfl hn
  | cons c t => simp [(hr c (by simp)).ne_nil]

theorem all_agree {r : Rx} (hg : r.good = true) (hs : r.startOk = true) (he : r.eats = true) (f g o : Nat) {prev : Option Rune}
    (hp : ∀ r, prev = some r → r.Ok) {rs : List Rune} (hr : ∀ r ∈ rs, r.Ok) (last : Option Nat)
    (hf : (flat rs).length < f) (hg' : (flat rs).length < g) :
    r.all f o prev rs last = r.toRe.findAllI g o (lastByte prev) (flat rs) := by
  induction f generalizing g o prev rs last with
  | zero => omega
  | succ f ih =>
    obtain ⟨g, rfl⟩ : ∃ m, g = m + 1 := ⟨g - 1, by omega⟩
    rw [Rx.all, Re.findAllI, find_agree hg hs o hp hr]
    cases h : r.find o prev rs with
    | none => rfl
    | some z =>
      obtain ⟨i, before, x⟩ := z
      obtain ⟨h1, h2, us, e⟩ := rx_find_split h
      obtain ⟨_, h4⟩ := suffix_ok e.symm hr
      obtain ⟨h5, h6⟩ := suffix_ok rfl h4
      have h7 := eats_text he x h2
      have h8 := flat_ne_nil h5 h7
      have h9 : 0 < (flat x.text).length := List.length_pos_iff.2 h8
      have hl := congrArg (fun l => (flat l).length) e
      simp only [flat_append, List.length_append] at hl
      simp only [Option.map_some, Way.place]
      rw [if_neg (by omega), if_neg h8]
      congr 1
      rw [ih g _ (prev := x.text.getLast?.or before) (rs := x.rest) _ h6 _ (by omega) (by omega)]
      · rw [lastByte_or h5]
        congr 1
        cases hy : (flat x.text).getLast? with
        | none => exact absurd (List.getLast?_eq_none_iff.1 hy) h8
        | some d => simp
      · intro q hq
        rw [Option.or_eq_some_iff] at hq
        rcases hq with hq | ⟨hq, _⟩
        · exact h5 q (List.mem_of_getLast? hq)
        · exact absurd (List.getLast?_eq_none_iff.1 hq) h7

/-- All matches in a text. -/
theorem findAll_agree {r : Rx} (hg : r.good = true) (hs : r.startOk = true) (he : r.eats = true) (s : Bytes) :
    r.findAll s = r.toRe.findAllI (s.length + 1) 0 none s := by
  have := all_agree hg hs he (2 * s.length + 2) (s.length + 1) 0 (prev := none) (by simp) (runes_ok s) none
    (by rw [flat_runes]; omega) (by rw [flat_runes]; omega)
  rw [flat_runes] at this
  exact this

/-- The text with each match replaced. -/
theorem splice_eq (r : Re) (n : Nat) (str t : Bytes) {o : Nat} {prev : Option UInt8} {s : Bytes} (hs : str.drop o = s) :
    splice str t o (r.findAllI n o prev s) = (r.findAll n prev s).1.flatMap (fun x => x.1 ++ t) ++ (r.findAll n prev s).2 := by
  induction n generalizing o prev s with
  | zero => simp [Re.findAllI, Re.findAll, splice, hs]
  | succ n ih =>
    have h := findI_eq (r := r) (prev := prev) hs
    cases hi : r.findI o prev s with
    | none =>
      rw [hi] at h
      simp only at h
      simp [Re.findAllI, Re.findAll, hi, h, splice, hs]
    | some z =>
      obtain ⟨i, x⟩ := z
      rw [hi] at h
      obtain ⟨skip, h1, rfl, h3, h4⟩ := h
      by_cases hx : x.text = []
      · simp [Re.findAllI, Re.findAll, hi, h1, hx, Place.found, splice, hs]
      · have hd : str.drop (o + skip.length + x.text.length) = x.rest := by
          rw [← List.drop_drop, ← List.drop_drop, hs, ← h3, List.append_assoc]; simp
        have := ih (o := o + skip.length + x.text.length) (prev := x.text.getLast?) hd
        rw [Re.findAllI, hi]
        simp only
        rw [if_neg hx, splice, this, Re.findAll, h1]
        simp only [Place.found, hx, if_false, List.flatMap_cons, List.append_assoc]
        rw [hs, ← h3]
        simp

/-! ## The expressions of the tools -/

/-- tools/removecomments/removecomments.go:23, as it is read -/
def commentRx : Rx :=
  .seq .bol (.seq (.star (.ranges [(9, 10), (12, 13), (32, 32)])) (.seq (.cls (.char 47)) (.seq (.cls (.char 47)) (.seq (.cls (.char 108))
    (.seq (.cls (.char 105)) (.seq (.cls (.char 110)) (.seq (.cls (.char 101)) (.seq (.star .any) (.seq .eol
      (.seq (.opt (.char 13)) (.opt (.char 10))))))))))))

theorem read_comment : readRx (lit "(?m)^\\s*//line.*$\\r?\\n?") = some commentRx := rfl

/-- tools/snake2camel/snake2camel.go:38, as it is read -/
def snakeRx : Rx :=
  .seq (.cap (.star .any)) (.seq (.cap (.seq (.seq (.cls (.ranges [(97, 122)])) (.star (.ranges [(97, 122)]))) (.star (.ranges [(48, 57)]))))
    (.seq (.cls (.char 95)) (.seq (.cap (.cls (.ranges [(97, 122), (65, 90), (48, 57)]))) (.cap (.star .any)))))

theorem read_snake : readRx (lit "(.*)([a-z]+[0-9]*)_([a-zA-Z0-9])(.*)") = some snakeRx := rfl

theorem byte_char (n : UInt8) : (Cls.char n.toNat).byte = fun c => c == n := by
  funext c
  rw [Bool.eq_iff_iff]
  simp only [Cls.byte, Cls.has, beq_iff_eq]
  exact UInt8.toNat_inj

theorem byte_any : Cls.any.byte = dot := by
  funext c
  rw [Bool.eq_iff_iff]
  simp only [Cls.byte, Cls.has, dot, bne_iff_ne]
  exact not_congr (UInt8.toNat_inj (b := 10))

theorem byte_space : (Cls.ranges [(9, 10), (12, 13), (32, 32)]).byte = space := by
  funext c
  rw [Bool.eq_iff_iff]
  simp only [Cls.byte, Cls.has, List.any_cons, List.any_nil, Bool.or_false, space, Bool.or_eq_true, Bool.and_eq_true, decide_eq_true_eq,
    beq_iff_eq, ← UInt8.toNat_inj]
  simp only [show (9 : UInt8).toNat = 9 from rfl, show (10 : UInt8).toNat = 10 from rfl, show (12 : UInt8).toNat = 12 from rfl,
    show (13 : UInt8).toNat = 13 from rfl, show (32 : UInt8).toNat = 32 from rfl]
  omega

theorem byte_lower : (Cls.ranges [(97, 122)]).byte = lowerCase := by
  funext c; simp [Cls.byte, Cls.has, lowerCase, UInt8.le_iff_toNat_le]

theorem byte_digit : (Cls.ranges [(48, 57)]).byte = digit := by
  funext c; simp [Cls.byte, Cls.has, digit, UInt8.le_iff_toNat_le]

theorem byte_alnum : (Cls.ranges [(97, 122), (65, 90), (48, 57)]).byte = alnum := by
  funext c; simp [Cls.byte, Cls.has, alnum, lowerCase, digit, UInt8.le_iff_toNat_le, Bool.or_assoc]

theorem comment_toRe : commentRx.toRe = commentRe := by
  have h (n : UInt8) := byte_char n
  simp only [commentRx, Rx.toRe, commentRe, byte_any, byte_space, show (Cls.char 47).byte = _ from h 47,
    show (Cls.char 108).byte = _ from h 108, show (Cls.char 105).byte = _ from h 105, show (Cls.char 110).byte = _ from h 110,
    show (Cls.char 101).byte = _ from h 101, show (Cls.char 13).byte = _ from h 13, show (Cls.char 10).byte = _ from h 10]

theorem snake_toRe : snakeRx.toRe = snakeRegex := by
  simp only [snakeRx, Rx.toRe, snakeRegex, byte_any, byte_lower, byte_digit, byte_alnum, Re.plus,
    show (Cls.char 95).byte = _ from byte_char 95]
  rfl

/-- `removeComments` on runes. -/
theorem comment_replace (s : Bytes) : commentRx.replaceAllLiteral s [] = removeComments s := by
  rw [Rx.replaceAllLiteral, findAll_agree rfl rfl rfl, comment_toRe, splice_eq commentRe _ s [] (o := 0) (s := s) rfl, findAll_same comment_same]
  simp [removeComments]

/-- `FindAllSubmatchIndex` on runes. -/
theorem snake_findAll (s : Bytes) : snakeRx.findAll s = snakeRegex.findAllI (s.length + 1) 0 none s := by
  rw [findAll_agree rfl rfl rfl, snake_toRe]

end Urn.Regex
