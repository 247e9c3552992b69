import Verif.Lemmas.Names

/-! C27: the text forms of qualified names. -/

namespace Brel

theorem latest_of_last (ns : NsMap) (p : Option String) (u : String) (h : LastPrefixOf ns p u) :
    latest (fun e : Option String × String => e.2) ns u = some (p, u) := by
  obtain ⟨pre, post, e, h⟩ := h
  exact (latest_eq_some_iff _ _ _ _).2 ⟨pre, post, e, rfl, h⟩

/-- C27. Clark notation round-trips exactly when the prefix of the name is the last one the scope declares for its namespace. -/
theorem C27_clark_roundtrip_partial (q : QName) (ns : NsMap) (hc : IsClark q.uri q.localName) (hx : q.uri ≠ xmlNs) :
    (∀ p, LastPrefixOf ns (some p) q.uri → (qnameFromStr q.clark ns = .ok q ↔ q.pfx = p)) ∧
    (LastPrefixOf ns none q.uri → (qnameFromStr q.clark ns = .ok q ↔ q.pfx = "None")) ∧
    ((∀ p, (p, q.uri) ∉ ns) → (qnameFromStr q.clark ns = .ok q ↔ q.pfx = "None")) := by
  have key := qnameFromStr_clark q.uri q.localName ns hc
  rw [if_neg hx, invertNs_get?] at key
  have e : ("{" ++ q.uri ++ "}" ++ q.localName) = q.clark := rfl
  rw [e] at key
  rw [key]
  obtain ⟨u, pf, l⟩ := q
  refine ⟨?_, ?_, ?_⟩
  · intro p h
    rw [latest_of_last ns _ _ h]
    simp [strOpt, eq_comm]
  · intro h
    rw [latest_of_last ns _ _ h]
    simp [strOpt, eq_comm]
  · intro h
    have : latest (fun e : Option String × String => e.2) ns u = none :=
      (latest_none _ _ _).2 (by rintro ⟨p, u'⟩ hm rfl; exact h p hm)
    simp only [this]
    simp [strOpt, eq_comm]

/-- C27. The reserved namespace always gets the prefix `xml`. -/
theorem C27_clark_xml (ns : NsMap) (l : String) (h : l ≠ "") (hl : '{' ∉ l.toList) :
    qnameFromStr (QName.clark ⟨xmlNs, "xml", l⟩) ns = .ok ⟨xmlNs, "xml", l⟩ := by
  have := qnameFromStr_clark xmlNs l ns ⟨by decide, h, by decide, hl⟩
  simpa [QName.clark] using this

/-- C27. `prefix:local` round-trips whenever the scope binds the prefix to the namespace (the prefix `xml` to the XML namespace). -/
theorem C27_prefix_roundtrip (q : QName) (ns : NsMap) (hp : q.pfx ≠ "") (hl : q.localName ≠ "")
    (hcp : ':' ∉ q.pfx.toList) (hcl : ':' ∉ q.localName.toList) (hb : '{' ∉ q.pfx.toList) :
    (qnameFromStr q.prefixLocal ns = .ok q ↔
      if q.pfx = "xml" then q.uri = xmlNs else q.uri = strOpt (ns.get? (some q.pfx))) := by
  obtain ⟨u, p, l⟩ := q
  simp only at hp hl hcp hcl hb ⊢
  have h1 : matchClark (QName.prefixLocal ⟨u, p, l⟩) = none := by
    cases h : matchClark (QName.prefixLocal ⟨u, p, l⟩) with
    | none => rfl
    | some x =>
      obtain ⟨u', l'⟩ := x
      have := ((matchClark_iff _ _ _).1 h).1
      have := congrArg String.toList this
      simp only [QName.prefixLocal, String.toList_append] at this
      cases hpl : p.toList with
      | nil => exact absurd hpl ((ne_empty_iff p).1 hp)
      | cons c cs =>
        rw [hpl] at this hb
        have := (List.cons.inj this).1
        exact absurd (this ▸ List.mem_cons_self) hb
  have h2 : matchColon (QName.prefixLocal ⟨u, p, l⟩) = some (p, l) := (matchColon_iff _ _ _).2 ⟨rfl, hp, hl, hcp, hcl⟩
  unfold qnameFromStr qnameFromPrefixLocal
  rw [h1, h2]
  simp only [Option.isSome_none, Bool.false_eq_true, if_false, Option.isSome_some, if_true, Except.ok.injEq, QName.mk.injEq, and_true]
  rw [Dict.get?_set]
  by_cases hx : p = "xml"
  · subst hx
    simp [strOpt, eq_comm]
  · simp [hx, Ne.symm hx, eq_comm]

/-- C27. For a prefix other than `xml` that the scope declares, this is the expected condition. -/
theorem C27_prefix_declared (q : QName) (ns : NsMap) (hp : q.pfx ≠ "") (hl : q.localName ≠ "")
    (hcp : ':' ∉ q.pfx.toList) (hcl : ':' ∉ q.localName.toList) (hb : '{' ∉ q.pfx.toList) (hx : q.pfx ≠ "xml")
    (h : ns.get? (some q.pfx) = some q.uri) : qnameFromStr q.prefixLocal ns = .ok q := by
  rw [C27_prefix_roundtrip q ns hp hl hcp hcl hb, if_neg hx, h]
  rfl

/-- C27 is false for Clark notation: with two prefixes for one namespace the name changes, although the scope declares its prefix. -/
theorem C27_clark_roundtrip_false :
    ∃ (q : QName) (ns : NsMap), IsClark q.uri q.localName ∧ ns.get? (some q.pfx) = some q.uri ∧ qnameFromStr q.prefixLocal ns = .ok q ∧
      qnameFromStr q.clark ns = .ok ⟨q.uri, "b", q.localName⟩ ∧ (⟨q.uri, "b", q.localName⟩ : QName) ≠ q :=
  ⟨⟨"http://u", "a", "n"⟩, [(some "a", "http://u"), (some "b", "http://u")], ⟨by decide, by decide, by decide, by decide⟩,
    by decide, by decide, by decide, by decide⟩

/-- C27 is false for the default namespace: the unprefixed text and the Clark text of one name give two different names. -/
theorem C27_default_namespace_false :
    ∃ (ns : NsMap) (a b : QName), qnameFromStr "n" ns = .ok a ∧ qnameFromStr "{http://u}n" ns = .ok b ∧ a.uri = b.uri ∧
      a.localName = b.localName ∧ a ≠ b :=
  ⟨[(none, "http://u")], ⟨"http://u", "", "n"⟩, ⟨"http://u", "None", "n"⟩, by decide, by decide, rfl, rfl, by decide⟩

/-- A scope with two namespaces meets the hypotheses. -/
example :
    let ns : NsMap := [(some "a", "http://u"), (none, "http://d"), (some "b", "http://v")]
    let q : QName := ⟨"http://v", "b", "Assets"⟩
    IsClark q.uri q.localName ∧ LastPrefixOf ns (some "b") q.uri ∧ qnameFromStr q.clark ns = .ok q ∧ qnameFromStr q.prefixLocal ns = .ok q := by
  refine ⟨⟨by decide, by decide, by decide, by decide⟩, ⟨[(some "a", "http://u"), (none, "http://d")], [], rfl, by simp⟩, by decide, by decide⟩

end Brel
