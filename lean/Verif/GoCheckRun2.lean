import Verif.GoCheckRun
/-!
# The checks of URNs return true
-/
set_option autoImplicit false
set_option linter.unusedSimpArgs false
set_option maxRecDepth 10000000
namespace Urn.GoLang

section
variable {X : Ext} {h : Heap} {a b c : Buf} {s t w : Bytes} {x y z : ParsingMode}

theorem run_agree (hb : b.has h s) (hfs : X.Fits s) : Holds prog tprog X "agree" [b.val s.length] h := by
  refine holds (g := fn% tfn "agree") (env := [("b", b.val s.length)]) (by kernel_rfl) rfl rfl
    (by simp [bindParams, zero_bytes, zero_mode, coerce_bytes, coerce]) ?_
  obtain ⟨p, h1, k1, ⟨e1, rfl, -⟩ | ⟨c, u, rfl, e1, hu, hp⟩⟩ := ev_parse0 (X := X) (env := [("b", b.val s.length)]) (e := .id "b") (by gt) hb hfs (.var (by gt))
  · exact .define2 e1 rfl rfl (.guard (by gt) (by gt) (by rintro ⟨⟩))
  · refine .define2 e1 rfl rfl (.guard (by gt) (by gt) fun _ => ?_)
    obtain ⟨r, p, h2, hr, e2, hr2, k2⟩ := ev_parse1 (X := X) (h := h1) (x := RFC8141Only)
      (env := [("u", .ptr "URN" (some c)), ("ok", .bool true), ("b", b.val s.length)]) (e := .id "b") (m := .id "RFC8141Only")
      (by gt) (by gt) (k1.buf hb) hfs (.var (by gt)) (.id (by simp [lookup, get, c_RFC8141Only, RFC8141Only]))
    refine .define2 e2 rfl rfl (.guard2 (by gt) (by gt) (by gt) (by gt) fun _ d hd => ?_)
    obtain ⟨v, hv, hq⟩ := urn_some hr hr2 hd
    subst hd
    obtain ⟨q1, q2, -, q4, q5, q6, q7⟩ := C36_agree s u v hu hv X.uni
    replace hp := k2.urn hp
    obtain ⟨h3, e3, k3⟩ := ev_equal (X := X) (p := "u") (q := "v") (env := [("v", .ptr "URN" (some d)), ("ok", .bool r.ok), ("u", .ptr "URN" (some c)), ("ok", .bool true), ("b", b.val s.length)])
      (by gt) hp (by gt) hq
    rw [q4] at e3
    have hq' := k3.urn hq
    exact .ret (.and (.and_true (.and_true (.and_true (.and_true (.eqSame (ev_id (by gt) hp) (ev_id (by gt) hq) q1)
      (.eqSame (ev_ss (by gt) hp) (ev_ss (by gt) hq) q2)) e3) (.eqSame (ev_r (by gt) hq') .str q5)) (.eqSame (ev_q (by gt) hq') .str q6))
      (.of (.eqSame (ev_f (by gt) hq') .str q7)))

theorem run_stable (hb : b.has h s) (hfs : X.Fits s) (hx : KnownMode x) : Holds prog tprog X "stable" [b.val s.length, .int "ParsingMode" x] h := by
  refine holds (g := fn% tfn "stable") (env := [("b", b.val s.length), ("mode", .int "ParsingMode" x)]) (by kernel_rfl) rfl rfl
    (by simp [bindParams, zero_bytes, zero_mode, coerce_bytes, coerce]) ?_
  obtain ⟨r, p, h1, hr, e1, hr2, k1⟩ := ev_parse1 (X := X) (env := [("b", b.val s.length), ("mode", .int "ParsingMode" x)]) (e := .id "b") (m := .id "mode")
    (by gt) (by gt) hb hfs (.var (by gt)) (.var (by gt))
  refine .define2 e1 rfl rfl (.guard2 (by gt) (by gt) (by gt) (by gt) fun _ d hd => ?_)
  obtain ⟨u, hu, hp⟩ := urn_some hr hr2 hd
  subst hd
  obtain ⟨d', h2, e2, k2, hq⟩ := ev_reparse (X := X) (u := u) (e := .call (.sel (.id "u") "String") .nil false) (m := .id "mode")
    (env := [("u", .ptr "URN" (some d)), ("ok", .bool r.ok), ("b", b.val s.length), ("mode", .int "ParsingMode" x)]) (by gt) (by gt)
    (ev_string (by gt) hp) (.var (by gt)) (Nat.lt_of_le_of_lt (string_le hx hu) hfs) (C15_stable x hx s u hu)
  replace hp := k2.urn hp
  obtain ⟨h3, e3, k3⟩ := ev_equal (X := X) (p := "v") (q := "u") (env := [("v", .ptr "URN" (some d')), ("ok", .bool true), ("u", .ptr "URN" (some d)), ("ok", .bool r.ok), ("b", b.val s.length), ("mode", .int "ParsingMode" x)])
    (by gt) hq (by gt) hp
  rw [(C16_equivalence X.uni).1] at e3
  exact .define2 e2 rfl rfl (.ret (.and (.and_true (.and_true (.and_true (.and_true (.var (by gt)) (.eqSame (ev_string (by gt) hq) (ev_string (by gt) hp) rfl))
    (.eqSame (ev_id (by gt) hq) (ev_id (by gt) hp) rfl)) (.eqSame (ev_ss (by gt) hq) (ev_ss (by gt) hp) rfl)) (.eqInt (ev_rfc (by gt) hq) (ev_rfc (by gt) hp) rfl))
    (.of e3)))

theorem run_normal (hb : b.has h s) (hfs : X.Fits s) (hx : KnownMode x) : Holds prog tprog X "normal" [b.val s.length, .int "ParsingMode" x] h := by
  refine holds (g := fn% tfn "normal") (env := [("b", b.val s.length), ("mode", .int "ParsingMode" x)]) (by kernel_rfl) rfl rfl
    (by simp [bindParams, zero_bytes, zero_mode, coerce_bytes, coerce]) ?_
  obtain ⟨r, p, h1, hr, e1, hr2, k1⟩ := ev_parse1 (X := X) (env := [("b", b.val s.length), ("mode", .int "ParsingMode" x)]) (e := .id "b") (m := .id "mode")
    (by gt) (by gt) hb hfs (.var (by gt)) (.var (by gt))
  refine .define2 e1 rfl rfl (.guard2 (by gt) (by gt) (by gt) (by gt) fun _ d hd => ?_)
  obtain ⟨u, hu, hp⟩ := urn_some hr hr2 hd
  subst hd
  obtain ⟨dn, h2, e2, hn, k2⟩ := ev_normalize (X := X) (p := "u")
    (env := [("u", .ptr "URN" (some d)), ("ok", .bool r.ok), ("b", b.val s.length), ("mode", .int "ParsingMode" x)]) (by gt) hp
  refine .define e2 rfl ?_
  replace hp := k2.urn hp
  obtain ⟨v, q1, q2, q3, q4⟩ := C20_reparse x hx s u hu X.uni
  obtain ⟨d', h3, e3, k3, hq⟩ := ev_reparse (X := X) (u := v) (e := .call (.sel (.id "n") "String") .nil false) (m := .id "mode")
    (env := [("n", .ptr "URN" (some dn)), ("u", .ptr "URN" (some d)), ("ok", .bool r.ok), ("b", b.val s.length), ("mode", .int "ParsingMode" x)]) (by gt) (by gt)
    (ev_string (by gt) hn) (.var (by gt)) (Nat.lt_of_le_of_lt (normal_le hx hu X.uni) hfs) q1
  replace hp := k3.urn hp
  replace hn := k3.urn hn
  refine .define2 e3 rfl rfl ?_
  obtain ⟨h4, e4, k4⟩ := ev_equal (X := X) (p := "u") (q := "v") (env := [("v", .ptr "URN" (some d')), ("ok", .bool true), ("n", .ptr "URN" (some dn)), ("u", .ptr "URN" (some d)), ("ok", .bool r.ok), ("b", b.val s.length), ("mode", .int "ParsingMode" x)])
    (by gt) hp (by gt) hq
  rw [q2] at e4
  replace hp := k4.urn hp
  replace hn := k4.urn hn
  replace hq := k4.urn hq
  obtain ⟨h5, e5, k5⟩ := ev_normalString (X := X) (p := "v") (env := [("v", .ptr "URN" (some d')), ("ok", .bool true), ("n", .ptr "URN" (some dn)), ("u", .ptr "URN" (some d)), ("ok", .bool r.ok), ("b", b.val s.length), ("mode", .int "ParsingMode" x)])
    (by gt) hq
  exact .ret (.and (.and_true (.and_true (.and_true (.var (by gt)) e4) (.eqSame (ev_string (by gt) hq) (ev_string (by gt) hn) q4))
    (.eqSame e5 (ev_string (by gt) (k5.urn hn)) q3)) (.of (.eqSame (ev_id (by gt) (k5.urn hn)) (.toLower (by gt) (ev_id (by gt) (k5.urn hp))) rfl)))

theorem run_canonical (ha : a.has h s) (hfs : X.Fits s) (hb : b.has h t) (hft : X.Fits t) (hx : KnownMode x) :
    Holds prog tprog X "canonical" [a.val s.length, b.val t.length, .int "ParsingMode" x] h := by
  refine holds (g := fn% tfn "canonical") (env := [("a", a.val s.length), ("b", b.val t.length), ("mode", .int "ParsingMode" x)]) (by kernel_rfl) rfl rfl
    (by simp [bindParams, zero_bytes, zero_mode, coerce_bytes, coerce]) ?_
  obtain ⟨r, p, h1, hr, e1, hr2, k1⟩ := ev_parse1 (X := X) (env := [("a", a.val s.length), ("b", b.val t.length), ("mode", .int "ParsingMode" x)]) (e := .id "a") (m := .id "mode")
    (by gt) (by gt) ha hfs (.var (by gt)) (.var (by gt))
  refine .define2 e1 rfl rfl (.guard2 (by gt) (by gt) (by gt) (by gt) fun _ d hd => ?_)
  obtain ⟨u, hu, hp⟩ := urn_some hr hr2 hd
  subst hd
  obtain ⟨r', p', h2, hr', e2, hr2', k2⟩ := ev_parse1 (X := X) (env := [("u", .ptr "URN" (some d)), ("ok", .bool r.ok), ("a", a.val s.length), ("b", b.val t.length), ("mode", .int "ParsingMode" x)]) (e := .id "b") (m := .id "mode")
    (by gt) (by gt) (k1.buf hb) hft (.var (by gt)) (.var (by gt))
  refine .define2 e2 rfl rfl (.guard2 (by gt) (by gt) (by gt) (by gt) fun _ d' hd => ?_)
  obtain ⟨v, hv, hq⟩ := urn_some hr' hr2' hd
  subst hd
  replace hp := k2.urn hp
  obtain ⟨h3, e3, k3⟩ := ev_equal (X := X) (p := "u") (q := "v")
    (env := [("v", .ptr "URN" (some d')), ("ok", .bool r'.ok), ("u", .ptr "URN" (some d)), ("ok", .bool r.ok), ("a", a.val s.length), ("b", b.val t.length), ("mode", .int "ParsingMode" x)])
    (by gt) hp (by gt) hq
  replace hp := k3.urn hp
  replace hq := k3.urn hq
  obtain ⟨h4, e4, k4⟩ := ev_normalString (X := X) (p := "u")
    (env := [("v", .ptr "URN" (some d')), ("ok", .bool r'.ok), ("u", .ptr "URN" (some d)), ("ok", .bool r.ok), ("a", a.val s.length), ("b", b.val t.length), ("mode", .int "ParsingMode" x)])
    (by gt) hp
  replace hq := k4.urn hq
  obtain ⟨h5, e5, k5⟩ := ev_normalString (X := X) (p := "v")
    (env := [("v", .ptr "URN" (some d')), ("ok", .bool r'.ok), ("u", .ptr "URN" (some d)), ("ok", .bool r.ok), ("a", a.val s.length), ("b", b.val t.length), ("mode", .int "ParsingMode" x)])
    (by gt) hq
  have := Ev.eqBool e3 (.eqStr e4 e5)
  have hk := C20_canonical x x hx hx Iff.rfl s t u v hu hv X.uni
  rw [show (u.equal X.uni (some v) == ((u.normalize X.uni).string == (v.normalize X.uni).string)) = true by
    rw [beq_iff_eq, Bool.eq_iff_iff, hk, beq_iff_eq]] at this
  exact .ret (.of this)

theorem run_equivalence (ha : a.has h s) (hfs : X.Fits s) (hb : b.has h t) (hft : X.Fits t) (hc : c.has h w) (hfw : X.Fits w) :
    Holds prog tprog X "equivalence" [a.val s.length, b.val t.length, c.val w.length, .int "ParsingMode" x, .int "ParsingMode" y, .int "ParsingMode" z] h := by
  obtain ⟨env0, hE⟩ : ∃ env0 : Env, env0 = [("a", a.val s.length), ("b", b.val t.length), ("c", c.val w.length), ("x", .int "ParsingMode" x), ("y", .int "ParsingMode" y), ("z", .int "ParsingMode" z)] := ⟨_, rfl⟩
  refine holds (g := fn% tfn "equivalence") (env := env0) (by kernel_rfl) rfl rfl
    (by simp [hE, bindParams, zero_bytes, zero_mode, coerce_bytes, coerce]) ?_
  subst hE
  obtain ⟨r, p, h1, hr, e1, hr2, k1⟩ := ev_parse1 (X := X) (env := [("a", a.val s.length), ("b", b.val t.length), ("c", c.val w.length), ("x", .int "ParsingMode" x), ("y", .int "ParsingMode" y), ("z", .int "ParsingMode" z)]) (e := .id "a") (m := .id "x")
    (by gt) (by gt) ha hfs (.var (by gt)) (.var (by gt))
  refine .define2 e1 rfl rfl (.guard2 (by gt) (by gt) (by gt) (by gt) fun _ d hd => ?_)
  obtain ⟨u, hu, hp⟩ := urn_some hr hr2 hd
  subst hd
  obtain ⟨r', p', h2, hr', e2, hr2', k2⟩ := ev_parse1 (X := X) (env := ("u", .ptr "URN" (some d)) :: ("ok", .bool r.ok) :: [("a", a.val s.length), ("b", b.val t.length), ("c", c.val w.length), ("x", .int "ParsingMode" x), ("y", .int "ParsingMode" y), ("z", .int "ParsingMode" z)]) (e := .id "b") (m := .id "y")
    (by gt) (by gt) (k1.buf hb) hft (.var (by gt)) (.var (by gt))
  refine .define2 e2 rfl rfl (.guard2 (by gt) (by gt) (by gt) (by gt) fun _ d' hd => ?_)
  obtain ⟨v, hv, hq⟩ := urn_some hr' hr2' hd
  subst hd
  obtain ⟨r'', p'', h3, hr'', e3, hr2'', k3⟩ := ev_parse1 (X := X) (env := ("v", .ptr "URN" (some d')) :: ("ok", .bool r'.ok) :: ("u", .ptr "URN" (some d)) :: ("ok", .bool r.ok) :: [("a", a.val s.length), ("b", b.val t.length), ("c", c.val w.length), ("x", .int "ParsingMode" x), ("y", .int "ParsingMode" y), ("z", .int "ParsingMode" z)]) (e := .id "c") (m := .id "z")
    (by gt) (by gt) (k2.buf (k1.buf hc)) hfw (.var (by gt)) (.var (by gt))
  refine .define2 e3 rfl rfl (.guard2 (by gt) (by gt) (by gt) (by gt) fun _ d'' hd => ?_)
  obtain ⟨o, ho, hq'⟩ := urn_some hr'' hr2'' hd
  subst hd
  replace hp := k3.urn (k2.urn hp)
  replace hq := k3.urn hq
  generalize hE : (("w", .ptr "URN" (some d'')) :: ("ok", .bool r''.ok) :: ("v", .ptr "URN" (some d')) :: ("ok", .bool r'.ok) :: ("u", .ptr "URN" (some d)) :: ("ok", .bool r.ok) ::
    [("a", a.val s.length), ("b", b.val t.length), ("c", c.val w.length), ("x", .int "ParsingMode" x), ("y", .int "ParsingMode" y), ("z", .int "ParsingMode" z)] : Env) = env
  have gu : get "u" env = some (.ptr "URN" (some d)) := by subst hE; gt
  have gv : get "v" env = some (.ptr "URN" (some d')) := by subst hE; gt
  have gw : get "w" env = some (.ptr "URN" (some d'')) := by subst hE; gt
  have gn : get "nil" env = none := by subst hE; gt
  clear hE
  obtain ⟨c1, c2, c3, c4⟩ := C16_equivalence X.uni
  -- the `if`
  have key : ∃ h', Keep h3 h' ∧ Ev X env h3 (.bin .and (.bin .and (.call (.sel (.id "u") "Equal") (.cons (.id "v") .nil) false) (.call (.sel (.id "v") "Equal") (.cons (.id "w") .nil) false))
      (.un .not (.call (.sel (.id "u") "Equal") (.cons (.id "w") .nil) false))) [.bool false] h' := by
    obtain ⟨g1, f1, l1⟩ := ev_equal (X := X) gu hp gv hq
    cases huv : u.equal X.uni (some v) with
    | false => rw [huv] at f1; exact ⟨g1, l1, .and_false (.and_false f1)⟩
    | true =>
        rw [huv] at f1
        obtain ⟨g2, f2, l2⟩ := ev_equal (X := X) gv (l1.urn hq) gw (l1.urn hq')
        cases hvw : v.equal X.uni (some o) with
        | false => rw [hvw] at f2; exact ⟨g2, l1.trans l2, .and_false (.and_true f1 f2)⟩
        | true =>
            rw [hvw] at f2
            obtain ⟨g3, f3, l3⟩ := ev_equal (X := X) gu ((l1.trans l2).urn hp) gw ((l1.trans l2).urn hq')
            rw [c3 u v o huv hvw] at f3
            exact ⟨g3, (l1.trans l2).trans l3, .and_true (.and_true f1 f2) (.notT f3)⟩
  obtain ⟨h4, k4, e4⟩ := key
  refine .if_false e4 ?_
  obtain ⟨h5, e5, k5⟩ := ev_equal (X := X) gu (k4.urn hp) gu (k4.urn hp)
  rw [c1] at e5
  have kk := k4.trans k5
  obtain ⟨h6, e6, k6⟩ := ev_equal (X := X) gu (kk.urn hp) gv (kk.urn hq)
  replace kk := kk.trans k6
  obtain ⟨h7, e7, k7⟩ := ev_equal (X := X) gv (kk.urn hq) gu (kk.urn hp)
  have e8 := Ev.eqBool e6 e7
  rw [c2 u v, beq_self_eq_true] at e8
  exact .ret (.and (.and_true e5 e8) (.of (.notF (ev_equal_nil gu gn))))
end
end Urn.GoLang
