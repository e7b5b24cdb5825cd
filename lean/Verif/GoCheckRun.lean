import Verif.GoCheckCalls
/-!
# The checks of the function `Parse` return true
-/
set_option autoImplicit false
set_option linter.unusedSimpArgs false
set_option maxRecDepth 10000000
namespace Urn.GoLang

macro "gt" : tactic => `(tactic| first | rfl | (simp [get]; done))

theorem coerce_bytes (b : Buf) (k : Nat) : coerce .nil (b.val k) = b.val k := coerce_val b k _ (.inl rfl)

section
variable {X : Ext} {h : Heap} {b : Buf} {s : Bytes} {x : ParsingMode}

theorem run_unchanged (hb : b.has h s) (hfs : X.Fits s) : Holds prog tprog X "unchanged" [b.val s.length, .int "ParsingMode" x] h := by
  refine holds (g := fn% tfn "unchanged") (env := [("b", b.val s.length), ("mode", .int "ParsingMode" x)]) (by kernel_rfl) rfl rfl
    (by simp [bindParams, zero_bytes, zero_mode, coerce_bytes, coerce]) ?_
  refine .define (ev_bytes (by gt) (by gt) hb) rfl ?_
  obtain ⟨r, p, h1, -, e1, -, k1⟩ := ev_parse1 (X := X) (env := [("s", .str s), ("b", b.val s.length), ("mode", .int "ParsingMode" x)]) (e := .id "b") (m := .id "mode")
    (by gt) (by gt) hb hfs (.var (by gt)) (.var (by gt))
  exact .expr e1 (.ret (.of (.eqSame (ev_bytes (by gt) (by gt) (k1.buf hb)) (.var (by gt)) rfl)))

theorem run_reports (hb : b.has h s) (hfs : X.Fits s) (hx : x = RFC2141Only ∨ x = RFC7643Only) : Holds prog tprog X "reports" [b.val s.length, .int "ParsingMode" x] h := by
  refine holds (g := fn% tfn "reports") (env := [("b", b.val s.length), ("mode", .int "ParsingMode" x)]) (by kernel_rfl) rfl rfl
    (by simp [bindParams, zero_bytes, zero_mode, coerce_bytes, coerce]) ?_
  obtain ⟨r, p, h1, hr, e1, hu, k1⟩ := ev_parse1 (X := X) (env := [("b", b.val s.length), ("mode", .int "ParsingMode" x)]) (e := .id "b") (m := .id "mode")
    (by gt) (by gt) hb hfs (.var (by gt)) (.var (by gt))
  refine .define2 e1 rfl rfl (.ret ⟨h1, ?_⟩)
  have := Ev.eqBool (X := X) (h := h1) (a := .id "ok") (env := [("u", .ptr "URN" p), ("ok", .bool r.ok), ("b", b.val s.length), ("mode", .int "ParsingMode" x)])
    (.var (by gt)) (.notNil (by gt) (.var (s := "u") (by gt)))
  have hk : (r.ok == !p.isNone) = true := by
    have h2 := (C22_ok_iff x hx s).1 r hr
    cases hv : r.urn with
    | none => rw [hv] at hu h2; cases hu; cases ho : r.ok <;> simp_all
    | some u => rw [hv] at hu h2; obtain ⟨c, _, rfl, _⟩ := hu; cases ho : r.ok <;> simp_all
  rwa [hk] at this

theorem run_roundTrip (hb : b.has h s) (hfs : X.Fits s) : Holds prog tprog X "roundTrip" [b.val s.length] h := by
  refine holds (g := fn% tfn "roundTrip") (env := [("b", b.val s.length)]) (by kernel_rfl) rfl rfl
    (by simp [bindParams, zero_bytes, zero_mode, coerce_bytes, coerce]) ?_
  obtain ⟨p, h1, k1, ⟨e1, rfl, -⟩ | ⟨c, u, rfl, e1, hu, hp⟩⟩ := ev_parse0 (X := X) (env := [("b", b.val s.length)]) (e := .id "b") (by gt) hb hfs (.var (by gt))
  · exact .define2 e1 rfl rfl (.ret (.or_true (.notF (.var (by gt)))))
  · exact .define2 e1 rfl rfl (.ret (.or_false (.notT (.var (by gt))) (.of (.eqSame (ev_string (by gt) hp) (ev_bytes (by gt) (by gt) (k1.buf hb)) (C07_round_trip s u hu)))))

theorem run_independent {i : Int} {c : UInt8} (hb : b.has h s) (hfs : X.Fits s) (hi : 0 ≤ i ∧ i < s.length) :
    Holds prog tprog X "independent" [b.val s.length, .int "ParsingMode" x, .int "int" i, .int "byte" c.toNat] h := by
  refine holds (g := fn% tfn "independent") (env := [("b", b.val s.length), ("mode", .int "ParsingMode" x), ("i", .int "int" i), ("c", .int "byte" c.toNat)]) (by kernel_rfl) rfl rfl
    (by simp [bindParams, zero_bytes, zero_mode, coerce_bytes, coerce, zero_int, zero_byte]) ?_
  obtain ⟨r, p, h1, hr, e1, hu, k1⟩ := ev_parse1 (X := X) (env := [("b", b.val s.length), ("mode", .int "ParsingMode" x), ("i", .int "int" i), ("c", .int "byte" c.toNat)]) (e := .id "b") (m := .id "mode")
    (by gt) (by gt) hb hfs (.var (by gt)) (.var (by gt))
  refine .define2 e1 rfl rfl (.guard2 (by gt) (by gt) (by gt) (by gt) fun hk d hd => ?_)
  obtain ⟨u, hu, hp⟩ := urn_some hr hu hd
  subst hd
  cases b with
  | nil => cases hb; simp at hi; omega
  | part a pre post cap =>
      have hb1 := (k1.buf hb).1
      refine .define (ev_string (by gt) hp) rfl (.define (ev_id (by gt) hp) rfl (.define (ev_ss (by gt) hp) rfl ?_))
      refine .setIndex (.var (by gt)) (.var (by gt)) (.var (by gt)) (h1 := h1.set a (.arr (pre ++ s.set i.toNat (UInt8.ofNat c.toNat) ++ post))) ?_ ?_
      · simp only [Buf.val, setIndex]
        rw [if_pos hi]
        exact storeByte_cellOf (w := .all) hb1 rfl (by omega)
      · have hp' := urn_set (new := pre ++ s.set i.toNat (UInt8.ofNat c.toNat) ++ post) hp hb1
        exact .ret (.and (.and_true (.eqSame (ev_string (by gt) hp') (.var (by gt)) rfl) (.eqSame (ev_id (by gt) hp') (.var (by gt)) rfl))
          (.of (.eqSame (ev_ss (by gt) hp') (.var (by gt)) rfl)))

theorem run_exclusive (hb : b.has h s) (hfs : X.Fits s) : Holds prog tprog X "exclusive" [b.val s.length, .int "ParsingMode" x] h := by
  refine holds (g := fn% tfn "exclusive") (env := [("b", b.val s.length), ("mode", .int "ParsingMode" x)]) (by kernel_rfl) rfl rfl
    (by simp [bindParams, zero_bytes, zero_mode, coerce_bytes, coerce]) ?_
  obtain ⟨m, am, h1, hn, e1, hm, k1⟩ := ev_new (X := X) (h := h) (env := [("b", b.val s.length), ("mode", .int "ParsingMode" x)]) (e := .id "mode") (by gt) (by gt) (.var (by gt))
  refine .define e1 rfl ?_
  obtain ⟨r, d, h2, hr, e2, hu, hm', -⟩ := ev_machineParse (X := X) (env := [("m", .ptr "machine" (some am)), ("b", b.val s.length), ("mode", .int "ParsingMode" x)])
    (p := "m") (q := "b") (by gt) hm (by gt) (k1.buf hb) hfs
  refine .define2 e2 rfl (coerce_errVal _) (.ret (.and (h1 := h2) ?_ (.of (h1 := h2) ?_)))
  · have := C21_never_both m hm.1 s r hr
    cases hv : r.urn with
    | none => rw [hv] at hu; cases hu; exact .or_true (.isNil (t := "URN") (p := none) (by gt) (.var (by gt)))
    | some u =>
        rw [hv] at hu this
        obtain ⟨c, _, rfl, _⟩ := hu
        have he : r.err = none := by simpa using this
        rw [he]
        exact .or_false (.isNil (t := "URN") (p := some c) (by gt) (.var (by gt))) (.errNil (r := none) (by gt) (.var (by gt)))
  · have he := C24_returned m hm.1 s r hr
    have := Ev.eqBool (X := X) (h := h2) (a := .bin .eq (.call (.sel (.id "m") "Error") .nil false) (.id "nil"))
      (env := [("u", .ptr "URN" d), ("err", errVal r.err), ("m", .ptr "machine" (some am)), ("b", b.val s.length), ("mode", .int "ParsingMode" x)])
      (.errNil (by gt) (.meth0 (by gt) (C63_methods isProgram_prog X h2 am r.m hm').2)) (.errNil (r := r.err) (by gt) (.var (s := "err") (by gt)))
    rwa [he, beq_self_eq_true] at this

theorem lit_bytes (t : String) (l : List Nat) (hl : t.toList.map (fun c => c.toNat) = l) : bytesOf l = lit t := by
  subst hl
  simp [bytesOf, lit]

theorem run_pieces (hb : b.has h s) (hfs : X.Fits s) : Holds prog tprog X "pieces" [b.val s.length] h := by
  refine holds (g := fn% tfn "pieces") (env := [("b", b.val s.length)]) (by kernel_rfl) rfl rfl
    (by simp [bindParams, zero_bytes, zero_mode, coerce_bytes, coerce]) ?_
  obtain ⟨p, h1, k1, ⟨e1, rfl, -⟩ | ⟨c, u, rfl, e1, hu, hp⟩⟩ := ev_parse0 (X := X) (env := [("b", b.val s.length)]) (e := .id "b") (by gt) hb hfs (.var (by gt))
  · exact .define2 e1 rfl rfl (.ret (.or_true (.notF (.var (by gt)))))
  · obtain ⟨hs, -, -, hpre, -⟩ := C06_pieces s u hu
    have h3 := Spec.IsUrn.length hpre
    have ht : (s.drop 0).take (3 - 0) = u.prefix := by
      rw [hs]
      simp only [List.append_assoc, List.drop_zero]
      rw [List.take_append_of_le_length (by omega), List.take_of_length_le (by omega)]
    have hd : (s.drop 3).take (s.length - 3) = lit ":" ++ u.ID ++ lit ":" ++ u.SS := by
      rw [List.take_of_length_le (by rw [List.length_drop]; omega), hs]
      simp only [List.append_assoc]
      rw [List.drop_append_of_le_length (by omega), List.drop_of_length_le (by omega), List.nil_append]
    have hl : 3 ≤ s.length := by rw [hs]; simp; omega
    refine .define2 e1 rfl rfl (.ret (.or_false (.notT (.var (by gt))) (.and (.eqSame (.toLower (by gt) (ev_sub (by gt) (by gt) (k1.buf hb) .num .num (by decide) hl)) .str ?_)
      (.of (.eqSame (ev_sub (i := 3) (by gt) (by gt) (k1.buf hb) .num (ev_len (by gt) (by gt) (k1.buf hb)) hl (Nat.le_refl _))
        (.add (.add (.add .str (ev_id (by gt) hp)) .str) (ev_ss (by gt) hp)) ?_)))))
    · rw [ht, toLower_ascii, hpre]
      · rfl
      · intro c hc
        have := (C34_printable RFC2141Only (.inl rfl) s ⟨u, hu⟩ c (by rw [hs]; simp [hc])).2.1
        exact Nat.lt_of_le_of_lt (UInt8.le_iff_toNat_le.1 this) (by decide)
    · rw [hd]; rfl
end
end Urn.GoLang
