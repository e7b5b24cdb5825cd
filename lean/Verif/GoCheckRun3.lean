import Verif.GoCheckRun2
/-!
# The checks of machines, options, JSON, SCIM and URNs made by hand return true
-/
set_option autoImplicit false
set_option linter.unusedSimpArgs false
set_option maxRecDepth 10000000
namespace Urn.GoLang

section
variable {X : Ext} {h : Heap} {a b c : Buf} {s t w : Bytes} {x y z : ParsingMode}

/-! ## The same URN twice -/

/-- `u.String() == v.String() && u.ID == v.ID && u.SS == v.SS && u.RFC() == v.RFC() && u.Equal(v)` -/
theorem evT_same {env : Env} {d d' : Nat} {u : URN} (gu : get "u" env = some (.ptr "URN" (some d))) (gv : get "v" env = some (.ptr "URN" (some d')))
    (hp : UrnPtr h (some d) (some u)) (hq : UrnPtr h (some d') (some u)) :
    EvT X env h (.bin .and (.bin .and (.bin .and (.bin .and
      (.bin .eq (.call (.sel (.id "u") "String") .nil false) (.call (.sel (.id "v") "String") .nil false))
      (.bin .eq (.sel (.id "u") "ID") (.sel (.id "v") "ID"))) (.bin .eq (.sel (.id "u") "SS") (.sel (.id "v") "SS")))
      (.bin .eq (.call (.sel (.id "u") "RFC") .nil false) (.call (.sel (.id "v") "RFC") .nil false)))
      (.call (.sel (.id "u") "Equal") (.cons (.id "v") .nil) false)) := by
  obtain ⟨h3, e3, k3⟩ := ev_equal (X := X) gu hp gv hq
  rw [(C16_equivalence X.uni).1] at e3
  exact .and (.and_true (.and_true (.and_true (.eqSame (ev_string gu hp) (ev_string gv hq) rfl)
    (.eqSame (ev_id gu hp) (ev_id gv hq) rfl)) (.eqSame (ev_ss gu hp) (ev_ss gv hq) rfl)) (.eqInt (ev_rfc gu hp) (ev_rfc gv hq) rfl))
    (.of e3)

/-- The end of `reuse` and of `last`: two results that are the same. -/
theorem exT_same {env : Env} {d d' : Option Nat} {u : Option URN} {e : Expr} (gn : get "nil" env = none)
    (gu : get "u" env = some (.ptr "URN" d)) (gv : get "v" env = some (.ptr "URN" d')) (hp : UrnPtr h d u) (hq : UrnPtr h d' u)
    (he : Ev X env h e [.bool false] h) :
    ExT X env h (.cons (.if_ .nil (.bin .or e (.bin .ne (.bin .eq (.id "u") (.id "nil")) (.bin .eq (.id "v") (.id "nil")))) (.cons (.ret (.cons (.id "false") .nil)) .nil) .nil)
      (.cons (.ret (.cons (.bin .or (.bin .eq (.id "u") (.id "nil"))
        (.bin .and (.bin .and (.bin .and (.bin .and
      (.bin .eq (.call (.sel (.id "u") "String") .nil false) (.call (.sel (.id "v") "String") .nil false))
      (.bin .eq (.sel (.id "u") "ID") (.sel (.id "v") "ID"))) (.bin .eq (.sel (.id "u") "SS") (.sel (.id "v") "SS")))
      (.bin .eq (.call (.sel (.id "u") "RFC") .nil false) (.call (.sel (.id "v") "RFC") .nil false)))
      (.call (.sel (.id "u") "Equal") (.cons (.id "v") .nil) false))) .nil)) .nil)) := by
  cases u with
  | none =>
      cases hp; cases hq
      exact .if_false (.or_false he (.neBool (t := true) (t' := true) (.isNil (t := "URN") (p := none) gn (.var gu)) (.isNil (t := "URN") (p := none) gn (.var gv))))
        (.ret (.or_true (.isNil (t := "URN") (p := none) gn (.var gu))))
  | some u =>
      have ⟨d1, _, e1, _⟩ := hp
      have ⟨d2, _, e2, _⟩ := hq
      subst e1 e2
      exact .if_false (.or_false he (.neBool (t := false) (t' := false) (.isNil (t := "URN") (p := some d1) gn (.var gu)) (.isNil (t := "URN") (p := some d2) gn (.var gv))))
        (.ret (.or_false (.isNil (t := "URN") (p := some d1) gn (.var gu)) (evT_same gu gv hp hq)))

theorem run_last (hb : b.has h s) (hfs : X.Fits s) (hx : KnownMode x) : Holds prog tprog X "last" [b.val s.length, .int "ParsingMode" y, .int "ParsingMode" x] h := by
  refine holds (g := fn% tfn "last") (env := [("b", b.val s.length), ("x", .int "ParsingMode" y), ("mode", .int "ParsingMode" x)]) (by kernel_rfl) rfl rfl
    (by simp [bindParams, zero_bytes, zero_mode, coerce_bytes, coerce]) ?_
  obtain ⟨r, p, h1, hr, e1, hu, k1⟩ := ev_parse (X := X) (env := [("b", b.val s.length), ("x", .int "ParsingMode" y), ("mode", .int "ParsingMode" x)]) (e := .id "b")
    [y, x] (by gt) hb hfs (.var (by gt)) (.cons (vs := [optVal y]) (.mode (by gt) (.var (s := "x") (by gt))) (.one (.mode (by gt) (.var (s := "mode") (by gt)))))
  have hl := C25_last_wins_parse [y] x hx s
  simp only [List.cons_append, List.nil_append] at hl
  rw [hl] at hr
  refine .define2 e1 rfl rfl ?_
  obtain ⟨r', p', h2, hr', e2, hv, k2⟩ := ev_parse1 (X := X) (env := [("u", .ptr "URN" p), ("ok", .bool r.ok), ("b", b.val s.length), ("x", .int "ParsingMode" y), ("mode", .int "ParsingMode" x)])
    (e := .id "b") (m := .id "mode") (by gt) (by gt) (k1.buf hb) hfs (.var (by gt)) (.var (by gt))
  rw [hr] at hr'
  cases hr'
  refine .define2 e2 rfl rfl (exT_same (by gt) (by gt) (by gt) (k2.urn hu) hv ?_)
  have := Ev.neBool (X := X) (h := h2) (a := .id "ok") (b := .id "ok2") (env := [("v", .ptr "URN" p'), ("ok2", .bool r.ok), ("u", .ptr "URN" p), ("ok", .bool r.ok), ("b", b.val s.length), ("x", .int "ParsingMode" y), ("mode", .int "ParsingMode" x)])
    (t := r.ok) (t' := r.ok) (.var (by gt)) (.var (by gt))
  rwa [beq_self_eq_true] at this

theorem run_reuse (ha : a.has h s) (hfs : X.Fits s) (hb : b.has h t) (hft : X.Fits t) : Holds prog tprog X "reuse" [a.val s.length, b.val t.length, .int "ParsingMode" x] h := by
  refine holds (g := fn% tfn "reuse") (env := [("a", a.val s.length), ("b", b.val t.length), ("mode", .int "ParsingMode" x)]) (by kernel_rfl) rfl rfl
    (by simp [bindParams, zero_bytes, zero_mode, coerce_bytes, coerce]) ?_
  obtain ⟨m, am, h1, hn, e1, hm, k1⟩ := ev_new (X := X) (h := h) (env := [("a", a.val s.length), ("b", b.val t.length), ("mode", .int "ParsingMode" x)]) (e := .id "mode") (by gt) (by gt) (.var (by gt))
  refine .define e1 rfl ?_
  obtain ⟨r, d, h2, hr, e2, -, hm2, k2⟩ := ev_machineParse (X := X) (env := [("m", .ptr "machine" (some am)), ("a", a.val s.length), ("b", b.val t.length), ("mode", .int "ParsingMode" x)])
    (p := "m") (q := "a") (by gt) hm (by gt) (k1.buf ha) hfs
  have hb2 := buf_except (k1.buf hb) hm k2
  refine .expr e2 ?_
  obtain ⟨r', d', h3, hr', e3, hu, hm3, k3⟩ := ev_machineParse (X := X) (env := [("m", .ptr "machine" (some am)), ("a", a.val s.length), ("b", b.val t.length), ("mode", .int "ParsingMode" x)])
    (p := "m") (q := "b") (by gt) hm2 (by gt) hb2 hft
  have hb3 := buf_except hb2 hm2 k3
  refine .define2 e3 rfl (coerce_errVal _) ?_
  obtain ⟨o, p, h4, ho, e4, hv, k4⟩ := ev_parse1 (X := X) (env := [("u", .ptr "URN" d'), ("err", errVal r'.err), ("m", .ptr "machine" (some am)), ("a", a.val s.length), ("b", b.val t.length), ("mode", .int "ParsingMode" x)])
    (e := .id "b") (m := .id "mode") (by gt) (by gt) hb3 hft (.var (by gt)) (.var (by gt))
  refine .define2 e4 rfl rfl ?_
  -- a new machine
  have hex : m.execAll [.parse s] = .ok (r.m, [.parsed r.urn r.err]) := by
    simp only [Machine.execAll, Machine.exec, hr, Run.ok_bind, Run.pure_eq]
  obtain ⟨r0, hr0⟩ : ∃ r0, m.parse t = .ok r0 := by
    obtain ⟨r0, _, _, h, _⟩ := C63_parse isProgram_prog X h1 am m hm b t (k1.buf hb) hft
    exact ⟨r0, h⟩
  have hs := C23_after m r.m hm.1 [.parse s] _ hex rfl t r0 r' hr0 hr'
  have hx : o.urn = r'.urn ∧ o.ok = r'.err.isNone := by
    simp only [parse, hn, hr0, Run.ok_bind] at ho
    rw [← hs.1, ← hs.2]
    have hboth := C21_never_both m hm.1 t r0 hr0
    cases he : r0.err with
    | none => rw [he] at ho; cases ho; exact ⟨rfl, rfl⟩
    | some e =>
        rw [he] at ho hboth
        cases ho
        refine ⟨?_, rfl⟩
        cases hv : r0.urn with
        | none => rfl
        | some v => rw [hv] at hboth; simp at hboth
  rw [hx.1] at hv
  refine exT_same (by gt) (by gt) (by gt) (k4.urn hu) hv ?_
  have := Ev.neBool (X := X) (h := h4) (a := .id "ok") (env := [("v", .ptr "URN" p), ("ok", .bool o.ok), ("u", .ptr "URN" d'), ("err", errVal r'.err), ("m", .ptr "machine" (some am)), ("a", a.val s.length), ("b", b.val t.length), ("mode", .int "ParsingMode" x)])
    (t := o.ok) (.var (by gt)) (.errNil (r := r'.err) (by gt) (.var (s := "err") (by gt)))
  rwa [show (o.ok == r'.err.isNone) = true by rw [hx.2, beq_self_eq_true]] at this

/-! ## JSON -/

theorem run_unmarshalKeeps (hb : b.has h s) (hfs : X.Fits s) (hc : c.has h t) (hft : X.FitsJson t) : Holds prog tprog X "unmarshalKeeps" [b.val s.length, c.val t.length] h := by
  refine holds (g := fn% tfn "unmarshalKeeps") (env := [("b", b.val s.length), ("d", c.val t.length)]) (by kernel_rfl) rfl rfl
    (by simp [bindParams, zero_bytes, zero_mode, coerce_bytes, coerce]) ?_
  obtain ⟨p, h1, k1, ⟨e1, rfl, -⟩ | ⟨d, u, rfl, e1, hu, hp⟩⟩ := ev_parse0 (X := X) (env := [("b", b.val s.length), ("d", c.val t.length)]) (e := .id "b") (by gt) hb hfs (.var (by gt))
  · exact .define2 e1 rfl rfl (.guard (by gt) (by gt) (by rintro ⟨⟩))
  · refine .define2 e1 rfl rfl (.guard (by gt) (by gt) fun _ => ?_)
    refine .define (ev_string (by gt) hp) rfl ?_
    obtain ⟨h2, e2, k2⟩ := ev_normalString (X := X) (p := "u") (env := [("s", .str u.string), ("u", .ptr "URN" (some d)), ("ok", .bool true), ("b", b.val s.length), ("d", c.val t.length)]) (by gt) hp
    refine .define e2 rfl ?_
    obtain ⟨v, e, h3, hr, e3, hq, -⟩ := C66_unmarshal isProgram_prog X h2 d u (k2.urn hp) (c.val t.length) t ⟨c, k2.buf (k1.buf hc), rfl⟩ hft
    refine .define (.meth (t := "URN") (by gt) find_unmarshal (.one (.var (s := "d") (by gt))) e3) (coerce_jerrVal _ _ _) ?_
    obtain ⟨v', e', hr', -, -, h4, -⟩ := C28_urn X.json u t
    rw [hr] at hr'
    cases hr'
    cases e with
    | none => exact .ret (.or_true (.jerrNil (r := none) (d := t) (by gt) (.var (by gt))))
    | some e =>
        have := h4 (by simp)
        subst this
        obtain ⟨h5, e5, k5⟩ := ev_normalString (X := X) (p := "u") (env := [("err", jerrVal X t (some e)), ("n", .str (v.normalize X.uni).string), ("s", .str v.string), ("u", .ptr "URN" (some d)), ("ok", .bool true), ("b", b.val s.length), ("d", c.val t.length)]) (by gt) hq
        exact .ret (.or_false (.jerrNil (r := some e) (d := t) (by gt) (.var (by gt))) (.and (.eqSame (ev_string (by gt) hq) (.var (by gt)) rfl) (.of (.eqSame e5 (.var (by gt)) rfl))))

/-- `&URN{}` and `&URN{ID: id, SS: ss}` -/
theorem Ev.new {env : Env} {es : Elems} {t : String} {vs : List (String × Val)} {v : Val} (he : ∃ N, ∀ n, N ≤ n → evalElems prog X (callN prog X n) es ⟨env, h⟩ = .ok (vs, ⟨env, h⟩))
    (hf : fill prog t vs = .ok v) : Ev X env h (.un .addr (.lit (.name t) es)) [.ptr t (some h.length)] (h ++ [.obj v]) := by
  obtain ⟨N, he⟩ := he
  exact ⟨N, fun n hn => by simp only [eval, he n hn, Res.ok_bind, hf, Res.pure_eq]⟩

theorem new_ptr {u : URN} (hs : u.scim = none) (ht : u.tolower = []) : UrnPtr (h ++ [.obj (urnValW none .nil u)]) (some h.length) (some u) :=
  ⟨_, _, rfl, by simp, none, .nil, rfl, .inr ⟨rfl, ht⟩, by rw [hs]; rfl⟩

theorem run_jsonRoundTrip (hj : JsonOk X.json) (hb : b.has h s) (hfs : X.Fits s) : Holds prog tprog X "jsonRoundTrip" [b.val s.length] h := by
  refine holds (g := fn% tfn "jsonRoundTrip") (env := [("b", b.val s.length)]) (by kernel_rfl) rfl rfl
    (by simp [bindParams, zero_bytes, zero_mode, coerce_bytes, coerce]) ?_
  obtain ⟨p, h1, k1, ⟨e1, rfl, -⟩ | ⟨d, u, rfl, e1, hu, hp⟩⟩ := ev_parse0 (X := X) (env := [("b", b.val s.length)]) (e := .id "b") (by gt) hb hfs (.var (by gt))
  · exact .define2 e1 rfl rfl (.guard (by gt) (by gt) (by rintro ⟨⟩))
  · refine .define2 e1 rfl rfl (.guard (by gt) (by gt) fun _ => ?_)
    obtain ⟨w, h2, e2, ⟨bw, hw, rfl⟩, k2⟩ := (C66_marshal isProgram_prog X h1 d).1 u hp
    refine .define2 (.meth0 (v := .ptr "URN" (some d)) (by gt) e2) (coerce_val _ _ _ (.inr rfl)) rfl ?_
    refine .define (.new ⟨0, fun n _ => by simp only [evalElems]⟩ fill_URN) rfl ?_
    have hp3 := Keep.app (e := [.obj (urnValW none .nil {})]) |>.urn (Keep.urn k2 hp)
    have hd : d ≠ h2.length := by
      obtain ⟨_, _, hd, hv, _⟩ := Keep.urn k2 hp
      cases hd
      have := (List.getElem?_eq_some_iff.1 hv).1
      omega
    obtain ⟨v, e, h3, hr, e3, hq, k3⟩ := C66_unmarshal isProgram_prog X (h2 ++ [.obj (urnValW none .nil {})]) h2.length {} (new_ptr rfl rfl) (bw.val (u.marshalJSON X.json).length)
      (u.marshalJSON X.json) ⟨bw, Keep.buf .app hw, rfl⟩ (by
        intro t ht
        have := hj u.string fun c hc => (by
          rw [C07_round_trip s u hu] at hc
          have := C34_printable RFC2141Only (.inl rfl) s ⟨u, hu⟩ c hc
          exact ⟨this.1, this.2.1⟩)
        cases ht.symm.trans this
        exact Nat.lt_of_le_of_lt (string_le (.inl rfl) hu) hfs)
    rw [C27_round_trip X.json hj s u {} hu] at hr
    cases hr
    refine .define (.meth (t := "URN") (by gt) find_unmarshal (.one (.var (s := "d") (by gt))) e3) rfl ?_
    -- the other URN is as before
    have hp4 : UrnPtr h3 (some d) (some u) := by
      obtain ⟨_, v, hd', hv, sp, tl, rfl, h4, h5⟩ := hp3
      cases hd'
      refine ⟨d, _, rfl, ?_, sp, tl, rfl, h4, ?_⟩
      · rw [k3 d (List.getElem?_eq_some_iff.1 hv).1 hd]; exact hv
      · rw [show u.scim = none by obtain ⟨_, _, _, _, _, rfl⟩ := parsesTo_2141.mp hu; rfl] at h5 ⊢
        exact h5
    obtain ⟨h5, e5, k5⟩ := ev_equal (X := X) (p := "v") (q := "u") (env := [("err2", .nil), ("v", .ptr "URN" (some h2.length)), ("d", bw.val (u.marshalJSON X.json).length), ("err", .nil), ("u", .ptr "URN" (some d)), ("ok", .bool true), ("b", b.val s.length)])
      (by gt) hq (by gt) hp4
    rw [(C16_equivalence X.uni).1] at e5
    exact .ret (.and (.and_true (.and_true (.and_true (.and_true (.errNil (r := none) (by gt) (.var (by gt))) (.errNil (r := none) (by gt) (.var (by gt))))
      (.eqSame (ev_string (by gt) hq) (ev_string (by gt) hp4) rfl)) (.eqSame (ev_id (by gt) hq) (ev_id (by gt) hp4) rfl)) (.eqSame (ev_ss (by gt) hq) (ev_ss (by gt) hp4) rfl)) (.of e5))

/-! ## URNs made by hand, and types -/

theorem fill_parts (s t : Bytes) : fill prog "URN" [("ID", .str s), ("SS", .str t)] = .ok (urnValW none .nil { ID := s, SS := t }) := by kernel_rfl

theorem run_built : Holds prog tprog X "built" [.str s, .str t] h := by
  refine holds (g := fn% tfn "built") (env := [("id", .str s), ("ss", .str t)]) (by kernel_rfl) rfl rfl
    (by simp [bindParams, zero_string, coerce]) ?_
  refine .define (.new ⟨0, fun n _ => by simp [evalElems, eval, lookup, get, one]⟩ (fill_parts s t)) rfl ?_
  have hp := new_ptr (h := h) (u := { ID := s, SS := t }) rfl rfl
  have ht := (C42_text s t).1
  by_cases h1 : s = []
  · rw [if_pos (.inl h1)] at ht
    exact .if_true rfl (.or_true (.eqSame (.var (by gt)) .str h1)) (.ret (.of (.eqSame (ev_string (by gt) hp) .str ht)))
  · by_cases h2 : t = []
    · rw [if_pos (.inr h2)] at ht
      have e1 := Ev.eqStr (X := X) (h := h ++ [.obj (urnValW none .nil { ID := s, SS := t })]) (a := .id "id") (b := .str []) (env := [("u", .ptr "URN" (some h.length)), ("id", .str s), ("ss", .str t)]) (t := s) (.var (by gt)) .str
      rw [show (s == bytesOf []) = false by simp [bytesOf, h1]] at e1
      exact .if_true rfl (.or_false e1 (.eqSame (.var (by gt)) .str h2)) (.ret (.of (.eqSame (ev_string (by gt) hp) .str ht)))
    · rw [if_neg (by simp [h1, h2])] at ht
      have e1 := Ev.eqStr (X := X) (h := h ++ [.obj (urnValW none .nil { ID := s, SS := t })]) (a := .id "id") (b := .str []) (env := [("u", .ptr "URN" (some h.length)), ("id", .str s), ("ss", .str t)]) (t := s) (.var (by gt)) .str
      have e2 := Ev.eqStr (X := X) (h := h ++ [.obj (urnValW none .nil { ID := s, SS := t })]) (a := .id "ss") (b := .str []) (env := [("u", .ptr "URN" (some h.length)), ("id", .str s), ("ss", .str t)]) (t := t) (.var (by gt)) .str
      rw [show (s == bytesOf []) = false by simp [bytesOf, h1]] at e1
      rw [show (t == bytesOf []) = false by simp [bytesOf, h2]] at e2
      exact .if_false (.or_false e1 e2) (.ret (.of (.eqSame (ev_string (by gt) hp) (.add (.add (.add .str (.var (by gt))) .str) (.var (by gt))) ht)))

theorem run_names : Holds prog tprog X "names" [.str s] h := by
  refine holds (g := fn% tfn "names") (env := [("s", .str s)]) (by kernel_rfl) rfl rfl
    (by simp [bindParams, zero_string, coerce]) ?_
  obtain ⟨-, h1, h2⟩ := C65_scim isProgram_prog X h
  refine .define (.callSchema (by gt) (by gt) (by decide) (.one (.var (s := "s") (by gt))) (h2 s)) rfl ?_
  have e1 : Ev X [("t", .int "Type" (SchemaType.fromString s)), ("s", .str s)] h (.call (.sel (.id "t") "String") .nil false) [.str (SchemaType.toStr (SchemaType.fromString s))] h :=
    .meth0 (by gt) (h1 _)
  obtain ⟨-, c2, c3, c4, -⟩ := C31_types
  by_cases hs : s = lit "schemas" ∨ s = lit "api" ∨ s = lit "param"
  · exact .ret (.or_true (.eqSame e1 (.var (by gt)) (c2 s hs)))
  · rw [show SchemaType.toStr (SchemaType.fromString s) = [] by rw [c3 s hs]; exact c4 SchemaType.Unsupported (by decide)] at e1
    simp only [not_or] at hs
    by_cases h0 : s = []
    · exact .ret (.or_true (.eqSame e1 (.var (by gt)) h0.symm))
    · have e2 := Ev.eqStr e1 (.var (s := "s") (v := .str s) (by gt))
      rw [show (([] : Bytes) == s) = false by cases s <;> first | exact absurd rfl h0 | rfl] at e2
      have ne : ∀ (l : List Nat) (k : String), k.toList.map (fun c => c.toNat) = l → s ≠ lit k → Ev X [("t", .int "Type" (SchemaType.fromString s)), ("s", .str s)] h (.bin .ne (.id "s") (.str l)) [.bool true] h := by
        intro l k hl hk
        have := Ev.neStr (X := X) (h := h) (env := [("t", .int "Type" (SchemaType.fromString s)), ("s", .str s)]) (a := .id "s") (b := .str l) (t := s) (.var (by gt)) .str
        rw [lit_bytes k l hl] at this
        rwa [show (!(s == lit k)) = true by simp [hk]] at this
      exact .ret (.or_false e2 (.and (.and_true (.and_true (.eqSame e1 .str rfl) (ne _ "schemas" rfl hs.1)) (ne _ "api" rfl hs.2.1)) (.of (ne _ "param" rfl hs.2.2))))
end
end Urn.GoLang
