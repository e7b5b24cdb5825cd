import Verif.GoText
import Verif.ToolsAux
/-!
# The text of machine.go has nothing that the tools would change
-/
set_option autoImplicit false
set_option maxRecDepth 10000000
namespace Urn.ToolLang
open GoLang (codes ofCodes machineC machine_text codes_ofCodes)
open SpecTools Tools

/-- The contents of a file with these lines. -/
def fileText (ls : List String) : Bytes := (ls.map fun l => lit l ++ [10]).flatten

/-- Looks for a snake case name.  The state is 1 after a lower case letter and digits, 2 after the underscore that
follows. -/
def scan : Nat → List Nat → Bool
  | _, [] => true
  | q, c :: t =>
      match Nat.ble 97 c && Nat.ble c 122 with
      | true => match Nat.beq q 2 with
        | true => false
        | false => scan 1 t
      | false => match Nat.ble 48 c && Nat.ble c 57 with
        | true => match Nat.beq q 2 with
          | true => false
          | false => scan q t
        | false => match Nat.ble 65 c && Nat.ble c 90 with
          | true => match Nat.beq q 2 with
            | true => false
            | false => scan 0 t
          | false => match Nat.beq c 95 && Nat.beq q 1 with
            | true => scan 2 t
            | false => scan 0 t

/-- The line has neither a comment nor a snake case name. -/
def clean (l : List Nat) : Bool :=
  l.all (Nat.ble · 127) && l.all (fun c => !Nat.beq c 10) && scan 0 l && !isComment (l.map UInt8.ofNat)

theorem lit_ofCodes {l : List Nat} (h : l.all (Nat.ble · 127) = true) : lit (ofCodes l) = l.map UInt8.ofNat := by
  have := codes_ofCodes l h
  unfold codes at this
  unfold lit
  conv => rhs; rw [← this, List.map_map]
  rfl

theorem byte_facts : ∀ n : Nat, n < 128 → isLower (UInt8.ofNat n) = (Nat.ble 97 n && Nat.ble n 122) ∧
    isDigit (UInt8.ofNat n) = (Nat.ble 48 n && Nat.ble n 57) ∧
    isAlnum (UInt8.ofNat n) = ((Nat.ble 97 n && Nat.ble n 122) || (Nat.ble 65 n && Nat.ble n 90) || (Nat.ble 48 n && Nat.ble n 57)) ∧
    (UInt8.ofNat n = 95 → n = 95) ∧ (UInt8.ofNat n = 10 → n = 10) := by decide +kernel

theorem scan_next {q : Nat} {c : Nat} {t : List Nat} (h : scan q (c :: t) = true) : ∃ q', scan q' t = true := by
  rw [scan] at h
  repeat' split at h
  all_goals first | exact ⟨_, h⟩ | cases h

theorem scan_drop {a : List Nat} {q : Nat} {r : List Nat} (h : scan q (a ++ r) = true) : ∃ q', scan q' r = true := by
  induction a generalizing q with
  | nil => exact ⟨q, h⟩
  | cons c a ih => obtain ⟨q', h'⟩ := scan_next h; exact ih h'

theorem scan_lower {q c : Nat} {t : List Nat} (hc : (Nat.ble 97 c && Nat.ble c 122) = true) (h : scan q (c :: t) = true) :
    scan 1 t = true := by
  rw [scan, hc] at h
  revert h
  cases Nat.beq q 2 <;> simp

theorem scan_digits {ds r : List Nat} (hd : ∀ c ∈ ds, (Nat.ble 48 c && Nat.ble c 57) = true) (h : scan 1 (ds ++ r) = true) :
    scan 1 r = true := by
  induction ds with
  | nil => exact h
  | cons c ds ih =>
    refine ih (fun x hx => hd x (by simp [hx])) ?_
    have h1 := hd c (by simp)
    have h2 : (Nat.ble 97 c && Nat.ble c 122) = false := by
      simp only [Bool.and_eq_true, Nat.ble_eq] at h1
      have : Nat.ble 97 c = false := by rw [← Bool.not_eq_true, Nat.ble_eq]; omega
      simp [this]
    rw [List.cons_append, scan, h2, h1] at h
    exact h

theorem scan_snake {y : Nat} {b : List Nat} (hy : ((Nat.ble 97 y && Nat.ble y 122) || (Nat.ble 65 y && Nat.ble y 90) ||
    (Nat.ble 48 y && Nat.ble y 57)) = true) : scan 1 (95 :: y :: b) = false := by
  have : scan 1 (95 :: y :: b) = scan 2 (y :: b) := rfl
  rw [this, scan]
  revert hy
  cases Nat.ble 97 y && Nat.ble y 122 <;> cases Nat.ble 65 y && Nat.ble y 90 <;> cases Nat.ble 48 y && Nat.ble y 57 <;> simp <;> rfl

theorem clean_snake {l : List Nat} (h : clean l = true) : ¬ HasSnake (l.map UInt8.ofNat) := by
  rintro ⟨a, x, ds, y, b, e, hx, hds, hy⟩
  simp only [clean, Bool.and_eq_true] at h
  obtain ⟨⟨⟨h127, -⟩, hs⟩, -⟩ := h
  have hlt : ∀ c ∈ l, c < 128 := by
    intro c hc
    have := List.all_eq_true.1 h127 c hc
    rw [Nat.ble_eq] at this; omega
  obtain ⟨a', r, rfl, rfl, e1⟩ := List.map_eq_append_iff.1 e
  obtain ⟨x', r, rfl, rfl, e2⟩ := List.map_eq_cons_iff.1 e1
  obtain ⟨ds', r, rfl, rfl, e3⟩ := List.map_eq_append_iff.1 e2
  obtain ⟨u, r, rfl, hu, e4⟩ := List.map_eq_cons_iff.1 e3
  obtain ⟨y', r, rfl, rfl, e5⟩ := List.map_eq_cons_iff.1 e4
  have hu' := (byte_facts u (hlt u (by simp))).2.2.2.1 hu
  subst hu'
  obtain ⟨q, hq⟩ := scan_drop hs
  have h1 := scan_lower ((byte_facts x' (hlt x' (by simp))).1 ▸ hx) hq
  have h2 := scan_digits (ds := ds') (fun c hc => (byte_facts c (hlt c (by simp [hc]))).2.1 ▸ hds _ (List.mem_map.2 ⟨c, hc, rfl⟩)) h1
  rw [scan_snake ((byte_facts y' (hlt y' (by simp))).2.2.1 ▸ hy)] at h2
  cases h2

theorem machine_clean : machineC.flatten.all clean = true := by decide +kernel

/-- The lines of machine.go, as bytes. -/
theorem machine_lines : (GoSource.machineGo.flatten.map fun l => lit l ++ [10]) =
    machineC.flatten.map fun l => l.map UInt8.ofNat ++ [10] := by
  rw [machine_text, List.map_map]
  refine List.map_congr_left fun l hl => ?_
  have h := List.all_eq_true.1 machine_clean l hl
  simp only [clean, Bool.and_eq_true] at h
  simp only [Function.comp, lit_ofCodes h.1.1.1]

theorem clean_lines {L : List (List Nat)} (h : L.all clean = true) : IsLines (L.map fun l => l.map UInt8.ofNat ++ [10]) := by
  induction L with
  | nil => exact .nil
  | cons l L ih =>
    simp only [List.all_cons, Bool.and_eq_true] at h
    refine .cons ?_ (ih h.2)
    intro hm
    obtain ⟨c, hc, he⟩ := List.mem_map.1 hm
    have h1 := h.1
    simp only [clean, Bool.and_eq_true] at h1
    have h2 := List.all_eq_true.1 h1.1.1.1 c hc
    have h3 := List.all_eq_true.1 h1.1.1.2 c hc
    rw [Nat.ble_eq] at h2
    have := (byte_facts c (by omega)).2.2.2.2 he
    subst this
    exact absurd h3 (by decide)

theorem comment_newline {l : Bytes} (h : isComment (l ++ [10]) = true) : isComment l = true := by
  unfold isComment at h ⊢
  induction l with
  | nil => exact absurd h (by decide)
  | cons c l ih =>
    rw [List.cons_append, List.dropWhile_cons] at h
    rw [List.dropWhile_cons]
    cases hc : isIndent c
    · rw [hc] at h
      simp only [Bool.false_eq_true, if_false] at h ⊢
      rw [List.isPrefixOf_iff_prefix] at h ⊢
      rw [← List.cons_append] at h
      rcases List.prefix_concat_iff.1 h with e | e
      · have := congrArg List.getLast? e
        rw [List.getLast?_concat] at this
        exact absurd this (by decide)
      · exact e
    · rw [hc] at h
      exact ih h

theorem snake_newline {l : Bytes} (h : HasSnake (l ++ [10])) : HasSnake l := by
  obtain ⟨a, x, ds, y, b, e, hx, hds, hy⟩ := h
  rcases List.eq_nil_or_concat b with rfl | ⟨b', z, rfl⟩
  · have := congrArg List.getLast? e
    rw [List.getLast?_concat, show a ++ x :: (ds ++ 95 :: y :: []) = (a ++ x :: (ds ++ [95])) ++ [y] by simp,
      List.getLast?_concat] at this
    injection this with this
    subst this
    exact absurd hy (by decide)
  · refine ⟨a, x, ds, y, b', ?_, hx, hds, hy⟩
    rw [List.concat_eq_append, show a ++ x :: (ds ++ 95 :: y :: (b' ++ [z])) = (a ++ x :: (ds ++ 95 :: y :: b')) ++ [z] by simp] at e
    exact (List.append_inj' e rfl).1

/-- machine.go has no comment lines and no snake case names. -/
theorem machine_same : (∀ l ∈ lines (fileText GoSource.machineGo.flatten), isComment l = false) ∧
    ¬ HasSnake (fileText GoSource.machineGo.flatten) := by
  have hL := clean_lines machine_clean
  unfold fileText
  rw [machine_lines, lines_of hL, hasSnake_flatten hL]
  constructor
  · intro l hl
    obtain ⟨k, hk, rfl⟩ := List.mem_map.1 hl
    have h := List.all_eq_true.1 machine_clean k hk
    simp only [clean, Bool.and_eq_true, Bool.not_eq_true'] at h
    cases hc : isComment (k.map UInt8.ofNat ++ [10])
    · rfl
    · rw [comment_newline hc] at h; exact absurd h.2 (by decide)
  · rintro ⟨l, hl, hs⟩
    obtain ⟨k, hk, rfl⟩ := List.mem_map.1 hl
    exact clean_snake (List.all_eq_true.1 machine_clean k hk) (snake_newline hs)

end Urn.ToolLang
