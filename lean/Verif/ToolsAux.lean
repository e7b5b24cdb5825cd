import Verif.SnakeAux
/-!
# Lemmas for the properties of the tools
-/
set_option autoImplicit false
namespace Urn.Tools
open SpecTools

theorem kept_not_comment (L : List Bytes) : ∀ l ∈ kept L, isComment l = false := by
  induction L with
  | nil => simp [kept]
  | cons l ls ih =>
    rw [kept]
    split
    · exact ih
    · next h =>
      intro k hk
      rcases List.mem_cons.mp hk with rfl | hk
      · cases hc : isComment k
        · rfl
        · exact absurd (by simp [hc]) h
      · exact ih k hk

theorem commentNext_false {L : List Bytes} (h : ∀ l ∈ L, isComment l = false) : commentNext L = false := by
  induction L with
  | nil => rfl
  | cons l ls ih => rw [commentNext, h l (by simp), ih fun k hk => h k (by simp [hk])]; simp

theorem kept_same {L : List Bytes} (h : ∀ l ∈ L, isComment l = false) : kept L = L := by
  induction L with
  | nil => rfl
  | cons l ls ih =>
    have h' : ∀ k ∈ ls, isComment k = false := fun k hk => h k (by simp [hk])
    rw [kept, h l (by simp), commentNext_false h', ih h']; simp

theorem kept_filter (L : List Bytes) :
    (kept L).filter (fun l => !isBlank l) = L.filter fun l => !isComment l && !isBlank l := by
  induction L with
  | nil => rfl
  | cons l ls ih =>
    rw [kept]
    cases hc : isComment l
    · cases hb : isBlank l
      · simp [hc, hb, ih]
      · cases hn : commentNext ls <;> simp [hc, hb, ih]
    · simp [hc, ih]

theorem squeezed_prefix {t t' : Bytes} (h : Squeezed t t') {w : Bytes}
    (hw : ∀ c ∈ w, ∀ y, isAlnum y = true → upper y ≠ c) (hp : w.isPrefixOf t' = true) : w.isPrefixOf t = true := by
  induction w generalizing t t' with
  | nil => simp [List.isPrefixOf]
  | cons c w ih =>
    cases h with
    | nil => exact absurd hp (by simp [List.isPrefixOf])
    | keep h =>
      simp only [List.isPrefixOf, Bool.and_eq_true] at hp ⊢
      exact ⟨hp.1, ih h (fun d hd => hw d (by simp [hd])) hp.2⟩
    | @drop y _ _ hy h =>
      simp only [List.isPrefixOf, Bool.and_eq_true, beq_iff_eq] at hp
      exact absurd hp.1.symm (hw c (by simp) y hy)

theorem upper_line : ∀ y, isAlnum y = true → upper y ≠ 47 ∧ upper y ≠ 108 ∧ upper y ≠ 105 ∧ upper y ≠ 110 ∧ upper y ≠ 101 ∧ isIndent (upper y) = false :=
  forall_byte (by decide +kernel)

theorem squeezed_comment {t t' : Bytes} (h : Squeezed t t') (hc : isComment t' = true) : isComment t = true := by
  have hw : ∀ c ∈ lit "//line", ∀ y, isAlnum y = true → upper y ≠ c := by
    intro c hc y hy
    have := upper_line y hy
    have hm : c ∈ ([47, 47, 108, 105, 110, 101] : Bytes) := hc
    simp only [List.mem_cons, List.not_mem_nil, or_false] at hm
    rcases hm with rfl | rfl | rfl | rfl | rfl | rfl
    · exact this.1
    · exact this.1
    · exact this.2.1
    · exact this.2.2.1
    · exact this.2.2.2.1
    · exact this.2.2.2.2.1
  induction h with
  | nil => exact hc
  | @keep c t t' h ih =>
    rw [isComment, List.dropWhile_cons] at hc ⊢
    cases hi : isIndent c
    · rw [hi] at hc
      exact squeezed_prefix (.keep h) hw hc
    · rw [hi] at hc
      exact ih hc
  | @drop y t t' hy h _ =>
    rw [isComment, List.dropWhile_cons, (upper_line y hy).2.2.2.2.2] at hc
    have := squeezed_prefix (.drop hy h) hw hc
    exact absurd this (by simp [lit, List.isPrefixOf])

theorem linewise_mem {P : Bytes → Bytes → Prop} {L L' : List Bytes} (h : Linewise P L L') {l' : Bytes} (hl : l' ∈ L') :
    ∃ l ∈ L, P l l' := by
  induction h with
  | nil => exact absurd hl (by simp)
  | @cons l k ls ks h _ ih =>
    rcases List.mem_cons.mp hl with rfl | hl
    · exact ⟨l, by simp, h⟩
    · obtain ⟨m, hm, hp⟩ := ih hl
      exact ⟨m, by simp [hm], hp⟩

theorem contents_write (old : Bytes) (ws : List Bytes) : contents old (ws.map .write) = old ++ ws.flatten := by
  induction ws generalizing old with
  | nil => simp [contents]
  | cons w ws ih =>
    have : contents old ((w :: ws).map .write) = contents (old ++ w) (ws.map .write) := rfl
    rw [this, ih]; simp

theorem snake2camel_eq {fuel : Nat} {t r : Bytes} (h : snake2camel fuel t = .ok r) : Linewise Done (lines t) (lines r) := by
  obtain ⟨r', h1, h2⟩ := snake2camel_done (fuel := fuel + (t.count 95 + 2)) (t := t) (by omega)
  have h3 : snake2camel (fuel + (t.count 95 + 2)) t = .ok r := loop_mono h
  rw [h3] at h1
  cases h1
  exact h2

end Urn.Tools
