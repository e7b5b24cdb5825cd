import Verif.GoCheckRun3
/-!
# The checks of SCIM URNs and of RFC 8141 return true
-/
set_option autoImplicit false
set_option linter.unusedSimpArgs false
set_option maxRecDepth 10000000
namespace Urn.GoLang

section
variable {X : Ext} {h : Heap} {b : Buf} {s : Bytes}

theorem scimType_str {kw : Bytes} {t : SchemaType} (h : Spec.ScimType kw t) : SchemaType.toStr t = kw := by cases h <;> rfl

theorem run_scim (hb : b.has h s) (hfs : X.Fits s) : Holds prog tprog X "scim" [b.val s.length] h := by
  refine holds (g := fn% tfn "scim") (env := [("b", b.val s.length)]) (by kernel_rfl) rfl rfl
    (by simp [bindParams, zero_bytes, zero_mode, coerce_bytes, coerce]) ?_
  obtain ⟨r, p, h1, hr, e1, hr2, k1⟩ := ev_parse1 (X := X) (h := h) (x := RFC7643Only)
    (env := [("b", b.val s.length)]) (e := .id "b") (m := .id "RFC7643Only")
    (by gt) (by gt) hb hfs (.var (by gt)) (.id (by simp [lookup, get, c_RFC7643Only, RFC7643Only]))
  refine .define2 e1 rfl rfl (.guard (by gt) (by gt) fun hok => ?_)
  obtain ⟨u, hu⟩ : ∃ u, r.urn = some u := Option.isSome_iff_exists.mp (by
    have := (C22_ok_iff RFC7643Only (.inr rfl) s).1 r hr
    rw [hok] at this
    cases hv : r.urn <;> simp_all)
  rw [hu] at hr2
  have ⟨d, _, hd, _⟩ := hr2
  subst hd
  replace hu : ParsesTo RFC7643Only s u := ⟨r, hr, hu⟩
  obtain ⟨v, hv, q1, q2, q3⟩ := C11_scim_is_2141 s u hu
  obtain ⟨kw, tail, x, c1, c2, -, c4, c5, -, c7, -, -, -, c10, c11, -⟩ := C10_pieces s u hu
  obtain ⟨p, h2, k2, ⟨-, -, hn⟩ | ⟨d', v', rfl, e2, hv', hq⟩⟩ := ev_parse0 (X := X) (env := [("u", .ptr "URN" (some d)), ("ok", .bool r.ok), ("b", b.val s.length)]) (e := .id "b") (by gt) (k1.buf hb) hfs (.var (by gt))
  · exact absurd ⟨v, hv⟩ hn
  cases parsesTo_unique hv hv'
  have hp := k2.urn hr2
  refine .define2 e2 rfl rfl ?_
  have f : ∀ {env : Env} {a e : Expr} {t : Bytes} {t' : Bytes}, Ev X env h2 a [.str t] h2 → Ev X env h2 e [.str t'] h2 → t = t' → Ev X env h2 (.bin .ne a e) [.bool false] h2 := by
    intro env a e t t' h1 h2 ht
    have := Ev.neStr h1 h2
    rwa [ht, beq_self_eq_true] at this
  refine .if_false (.or_false (.or_false (.or_false (.notT (.var (by gt))) (f (ev_id (by gt) hp) .str c2)) (f (ev_id (by gt) hq) .str q1)) (f (ev_ss (by gt) hq) (.add .str (ev_ss (by gt) hp)) q3)) ?_
  obtain ⟨px, e3, hx⟩ := ev_scim (X := X) (p := "u") (env := [("v", .ptr "URN" (some d')), ("ok", .bool true), ("u", .ptr "URN" (some d)), ("ok", .bool r.ok), ("b", b.val s.length)]) (by gt) hp
  rw [c1] at hx
  obtain ⟨dx, rfl, hx⟩ := hx
  refine .define e3 rfl ?_
  have fld : ∀ {env : Env} {k : String} {w : Val}, get "x" env = some (.ptr "SCIM" (some dx)) → field h2 (.ptr "SCIM" (some dx)) k = .ok w → Ev X env h2 (.sel (.id "x") k) [w] h2 :=
    fun h1 h2 => .sel (.var h1) h2
  have fl : ∀ {k : String} {w : Val}, get k [("Type", .int "Type" x.Typ), ("Name", .str x.Name), ("Other", .str x.Other), ("pos", .int "int" x.pos)] = some w → field h2 (.ptr "SCIM" (some dx)) k = .ok w := by
    intro k w hk
    simp only [field, loadObj, hx, scimVal, Res.ok_bind, hk, Res.some!_some, Res.pure_eq]
  refine .define (.add (.add (.methSel (fld (by gt) (fl (k := "Type") (by gt))) ((C65_scim isProgram_prog X h2).2.1 _)) .str) (fld (by gt) (fl (k := "Name") (by gt)))) rfl ?_
  refine .if_add (c := !(x.Other == [])) (t' := lit ":" ++ x.Other) (.neStr (fld (by gt) (fl (k := "Other") (by gt))) .str) (by gt) (.add .str (fld (by gt) (fl (k := "Other") (by gt)))) rfl rfl ?_ ?_
  · intro h0; rw [h0]; simp
  · have hs : (SchemaType.toStr x.Typ ++ bytesOf [58] ++ x.Name) ++ (if !(x.Other == []) then lit ":" ++ x.Other else []) = u.SS := by
      rw [c4, scimType_str c5, show bytesOf [58] = lit ":" from rfl]
      rcases c7 with ⟨rfl, h2⟩ | ⟨rfl, h2⟩
      · simp [h2]
      · have := h2.1
        simp [this]
    refine .ret (.and (.and_true (.and_true (.and_true (h1 := h2) ?_ (.notF (h1 := h2) ?_)) (.eqSame (ev_ss (by gt) hp) (.var (by gt)) hs.symm)) (.eqSame (ev_string (by gt) hp) (ev_string (by gt) hq) q2.symm))
      (.of (.eqSame (ev_string (by gt) hp) (ev_bytes (by gt) (by gt) (k2.buf (k1.buf hb))) c11)))
    · rw [← c10]; exact ev_isScim (by gt) hp
    · rw [← (C06_pieces s v hv).2.2.2.2.2.1]; exact ev_isScim (by gt) hq

theorem run_pieces8141 (hb : b.has h s) (hfs : X.Fits s) : Holds prog tprog X "pieces8141" [b.val s.length] h := by
  refine holds (g := fn% tfn "pieces8141") (env := [("b", b.val s.length)]) (by kernel_rfl) rfl rfl
    (by simp [bindParams, zero_bytes, zero_mode, coerce_bytes, coerce]) ?_
  obtain ⟨r, p, h1, hr, e1, hr2, k1⟩ := ev_parse1 (X := X) (h := h) (x := RFC8141Only)
    (env := [("b", b.val s.length)]) (e := .id "b") (m := .id "RFC8141Only")
    (by gt) (by gt) hb hfs (.var (by gt)) (.id (by simp [lookup, get, c_RFC8141Only, RFC8141Only]))
  refine .define2 e1 rfl rfl (.guard2 (by gt) (by gt) (by gt) (by gt) fun _ d hd => ?_)
  obtain ⟨u, hu, hp⟩ := urn_some hr hr2 hd
  subst hd
  replace hb := k1.buf hb
  obtain ⟨pre, cr, cq, cf, hs, hg, g1, g2, g3, g4, g5, -⟩ := C13_pieces s u hu
  refine .define (.add (.add (.add .str (ev_id (by gt) hp)) .str) (ev_ss (by gt) hp)) rfl ?_
  refine .if_add (c := !(u.getR == [])) (t' := lit "?+" ++ u.getR) (.neStr (ev_r (by gt) hp) .str) (by gt) (.add .str (ev_r (by gt) hp)) rfl rfl (by intro h0; rw [h0]; simp) ?_
  refine .if_add (c := !(u.getQ == [])) (t' := lit "?=" ++ u.getQ) (.neStr (ev_q (by gt) hp) .str) (by gt) (.add .str (ev_q (by gt) hp)) rfl rfl (by intro h0; rw [h0]; simp) ?_
  refine .if_add (c := !(u.getF == [])) (t' := lit "#" ++ u.getF) (.neStr (ev_f (by gt) hp) .str) (by gt) (.add .str (ev_f (by gt) hp)) rfl rfl (by intro h0; rw [h0]; simp) ?_
  have h3 := Spec.IsUrn.length hg.hpre
  have hd : (s.drop 3).take (s.length - 3) = lit ":" ++ u.ID ++ lit ":" ++ u.SS ++ Spec.opt (lit "?+") cr ++ Spec.opt (lit "?=") cq ++ Spec.opt (lit "#") cf := by
    rw [List.take_of_length_le (by rw [List.length_drop]; omega), hs]
    simp only [List.append_assoc]
    rw [List.drop_append_of_le_length (by omega), List.drop_of_length_le (by omega), List.nil_append]
  have hl : 3 ≤ s.length := by rw [hs]; simp; omega
  refine .define (ev_sub (i := 3) (by gt) (by gt) hb .num (ev_len (by gt) (by gt) hb) hl (Nat.le_refl _)) rfl ?_
  have o : ∀ (w : Bytes) (c : Option Bytes) (g : Bytes), g = c.getD [] → (c = some [] → False) → (if !(g == []) then w ++ g else []) = Spec.opt w c := by
    rintro w (_ | c) g rfl hc
    · rfl
    · cases g with
      | nil => exact absurd rfl hc
      | cons => rfl
  rw [hd, o (lit "?+") cr _ g1 g4, o (lit "?=") cq _ g2 g5, show bytesOf [58] = lit ":" from rfl]
  by_cases hf : cf = some []
  · subst hf
    rw [show u.getF = [] from g3]
    generalize lit ":" ++ u.ID ++ lit ":" ++ u.SS ++ Spec.opt (lit "?+") cr ++ Spec.opt (lit "?=") cq = w
    have e5 := Ev.eqStr (X := X) (h := h1) (a := .id "rest") (b := .id "s") (env := [("rest", .str (w ++ Spec.opt (lit "#") (some []))), ("s", .str (w ++ if !(([] : Bytes) == []) then lit "#" ++ [] else [])), ("u", .ptr "URN" (some d)), ("ok", .bool r.ok), ("b", b.val s.length)])
      (.var (by gt)) (.var (by gt))
    rw [show ((w ++ Spec.opt (lit "#") (some [])) == (w ++ if !(([] : Bytes) == []) then lit "#" ++ [] else [])) = false by simp [Spec.opt, lit]] at e5
    have e6 := ev_f (X := X) (p := "u") (env := [("rest", .str (w ++ Spec.opt (lit "#") (some []))), ("s", .str (w ++ if !(([] : Bytes) == []) then lit "#" ++ [] else [])), ("u", .ptr "URN" (some d)), ("ok", .bool r.ok), ("b", b.val s.length)]) (by gt) hp
    rw [show u.getF = [] from g3] at e6
    exact .ret (.or_false e5 (.and (.eqSame e6 .str rfl) (.of (.eqSame (.var (by gt)) (.add (.var (by gt)) .str) (by simp [Spec.opt, lit, bytesOf])))))
  · rw [o (lit "#") cf _ g3 hf]
    exact .ret (.or_true (.eqSame (.var (by gt)) (.var (by gt)) rfl))
end
end Urn.GoLang
