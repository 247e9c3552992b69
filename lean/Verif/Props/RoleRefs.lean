import Verif.Spec.RoleRefs
import Verif.Lemmas.Linkbase

/-! C109: role references of inline documents. -/

namespace Brel


theorem truthy_fault (validUri : String → Bool) (o : Option String) (a b : String) :
    uriReports validUri a b o =
    (if uriFault validUri o = some .missing then [a] else []) ++ (if uriFault validUri o = some .invalid then [b] else []) := by
  cases o with
  | none => rfl
  | some u =>
    by_cases hu : u = ""
    · subst hu; simp [uriReports, truthy, uriFault]
    · by_cases hv : validUri u = true
      · simp [uriReports, truthy, uriFault, hu, hv]
      · simp [uriReports, truthy, uriFault, hu, hv]

/-- C109. What is reported about a role reference, and in which order: one report for each of the six faults it can have. -/
theorem C109_reports (validUri : String → Bool) {x : XNode} (hs : x.ns.get? (some "xlink") = some "http://www.w3.org/1999/xlink") :
    parseRoleRef validUri x = .ok (
      (if x.xlinkAttr "linktype" ≠ some "simple" then ["ROLEREF_INVALID_LINKTYPE"] else []) ++
      (if uriFault validUri (x.xlinkAttr "href") = some .missing then ["ROLEREF_MISSING_HREF_ATTRIBUTE"] else []) ++
      (if uriFault validUri (x.xlinkAttr "href") = some .invalid then ["ROLEREF_INVALID_HREF_ATTRIBUTE"] else []) ++
      (if uriFault validUri (x.attr? "roleURI") = some .missing then ["ROLEREF_MISSING_ROLE_URI_ATTRIBUTE"] else []) ++
      (if uriFault validUri (x.attr? "roleURI") = some .invalid then ["ROLEREF_INVALID_ROLE_URI_ATTRIBUTE"] else []) ++
      (if x.xlinkAttr "role" = some "" then ["ROLEREF_EMPTY_ROLE_ATTRIBUTE"] else [])) := by
  unfold parseRoleRef
  rw [xlink?_eq hs (by decide +kernel) (by decide +kernel), xlink?_eq hs (by decide +kernel) (by decide +kernel), xlink?_eq hs (by decide +kernel) (by decide +kernel)]
  simp only [bind, Except.bind, pure, Except.pure]
  rw [truthy_fault, truthy_fault]
  simp only [List.append_assoc]

/-- C109 fails: every valid role reference is reported, because an attribute that does not exist is read for its link type. Nothing else is reported. -/
theorem C109_linktype_false {validUri : String → Bool} {x : XNode} (h : ValidRoleRef validUri "roleURI" x) : parseRoleRef validUri x = .ok ["ROLEREF_INVALID_LINKTYPE"] := by
  rw [C109_reports validUri h.scope, h.none]
  obtain ⟨u, hu, hu1, hu2⟩ := h.href
  obtain ⟨v, hv, hv1, hv2⟩ := h.uri
  have := h.role
  rw [hu, hv]
  simp [uriFault, hu1, hu2, hv1, hv2, this]

/-- C109 fails: every valid arc role reference is reported to have no `roleURI`, which it must not have. -/
theorem C109_arcrole_false {validUri : String → Bool} {x : XNode} (h : ValidRoleRef validUri "arcroleURI" x) (hn : x.attr? "roleURI" = none) :
    parseRoleRef validUri x = .ok ["ROLEREF_INVALID_LINKTYPE", "ROLEREF_MISSING_ROLE_URI_ATTRIBUTE"] := by
  rw [C109_reports validUri h.scope, h.none, hn]
  obtain ⟨u, hu, hu1, hu2⟩ := h.href
  have := h.role
  rw [hu]
  simp [uriFault, hu1, hu2, this]

/-- C109 fails: prefixes are free to choose, but of a reference in whose scope the prefix `xlink` is not bound no attribute is found, and it is reported to have no `href`. -/
theorem C109_prefix_false (validUri : String → Bool) {x : XNode} (hs : x.ns.get? (some "xlink") = none) (hn : ∀ n, x.attr? ("{None}" ++ n) = none) :
    ∃ errs, parseRoleRef validUri x = .ok ("ROLEREF_INVALID_LINKTYPE" :: "ROLEREF_MISSING_HREF_ATTRIBUTE" :: errs) := by
  have key : ∀ n, matchClark ("xlink:" ++ n) = none → matchColon ("xlink:" ++ n) = some ("xlink", n) → x.xlink? n = .ok none := by
    intro n h1 h2
    unfold XNode.xlink? qnameFromStr
    rw [h1, h2]
    simp only [Option.isSome_none, Bool.false_eq_true, if_false, Option.isSome_some, if_true, qnameFromPrefixLocal, h2, bind, Except.bind, pure, Except.pure]
    rw [Dict.get?_set, if_neg (by decide), hs]
    exact congrArg Except.ok (hn n)
  unfold parseRoleRef
  rw [key _ (by decide +kernel) (by decide +kernel), key _ (by decide +kernel) (by decide +kernel), key _ (by decide +kernel) (by decide +kernel)]
  exact ⟨_, rfl⟩

/-- C109. The references of valid documents are read without an exception; there is one report for each role reference and two for each arc role reference, and there are no others. -/
theorem C109_documents_partial {validUri : String → Bool} {roleRefs arcroleRefs : List XNode} (h1 : ∀ x ∈ roleRefs, ValidRoleRef validUri "roleURI" x)
    (h2 : ∀ x ∈ arcroleRefs, ValidRoleRef validUri "arcroleURI" x ∧ x.attr? "roleURI" = none) :
    parseRoleRefs validUri roleRefs arcroleRefs = .ok (roleRefs.flatMap (fun _ => ["ROLEREF_INVALID_LINKTYPE"]) ++
      arcroleRefs.flatMap (fun _ => ["ROLEREF_INVALID_LINKTYPE", "ROLEREF_MISSING_ROLE_URI_ATTRIBUTE"])) := by
  have key : ∀ (f : XNode → ErrNames) (l : List XNode), (∀ x ∈ l, parseRoleRef validUri x = .ok (f x)) → l.mapM (parseRoleRef validUri) = .ok (l.map f) := by
    intro f l
    induction l with
    | nil => intro _; rfl
    | cons x l ih =>
      intro h
      rw [List.mapM_cons, h x List.mem_cons_self, ih (fun y hy => h y (List.mem_cons_of_mem _ hy))]
      rfl
  unfold parseRoleRefs
  rw [List.mapM_append, key (fun _ => ["ROLEREF_INVALID_LINKTYPE"]) roleRefs (fun x hx => C109_linktype_false (h1 x hx)),
    key (fun _ => ["ROLEREF_INVALID_LINKTYPE", "ROLEREF_MISSING_ROLE_URI_ATTRIBUTE"]) arcroleRefs (fun x hx => C109_arcrole_false (h2 x hx).1 (h2 x hx).2)]
  simp only [bind, Except.bind, pure, Except.pure, Except.map, List.flatten_append, List.flatMap]

/-! ### Examples -/

/-- A valid role reference, written with another prefix. -/
example : ∃ x : XNode, x.ns.get? (some "xlink") = none ∧ (∀ n, x.attr? ("{None}" ++ n) = none) ∧ x.xlinkAttr "type" = some "simple" ∧ x.xlinkAttr "href" = some "a.xsd#r" :=
  ⟨.mk (some "{http://www.xbrl.org/2003/linkbase}roleRef") [("{http://www.w3.org/1999/xlink}type", "simple"), ("{http://www.w3.org/1999/xlink}href", "a.xsd#r"), ("roleURI", "http://a/notes")] none
    [(some "xl", "http://www.w3.org/1999/xlink")] [], by decide +kernel, by
      intro n
      have : ∀ s : String, s.toList.head? ≠ some '{' ∨ s.toList[1]? = some 'h' → s ≠ "{None}" ++ n := by
        intro s h e
        subst e
        rcases h with h | h <;> simp at h
      unfold XNode.attr?
      refine (Dict.get?_eq_none_iff _ _).2 ?_
      intro hm
      have : ∀ k ∈ ["{http://www.w3.org/1999/xlink}type", "{http://www.w3.org/1999/xlink}href", "roleURI"], k ≠ "{None}" ++ n := by
        intro k hk
        refine this k ?_
        revert k
        decide +kernel
      exact this _ hm rfl, by decide +kernel, by decide +kernel⟩

/-- A role reference and an arc role reference. -/
def sampleRoleRef : XNode := .mk (some "{http://www.xbrl.org/2003/linkbase}roleRef")
  [("{http://www.w3.org/1999/xlink}type", "simple"), ("{http://www.w3.org/1999/xlink}href", "a.xsd#r"), ("roleURI", "http://a/notes")] none
  [(some "xlink", "http://www.w3.org/1999/xlink")] []

@[inherit_doc sampleRoleRef] def sampleArcroleRef : XNode := .mk (some "{http://www.xbrl.org/2003/linkbase}arcroleRef")
  [("{http://www.w3.org/1999/xlink}type", "simple"), ("{http://www.w3.org/1999/xlink}href", "a.xsd#r"), ("arcroleURI", "http://a/explains")] none
  [(some "xlink", "http://www.w3.org/1999/xlink")] []

theorem sampleRoleRef_valid : ValidRoleRef (fun _ => true) "roleURI" sampleRoleRef :=
  ⟨by decide +kernel, by decide +kernel, by decide +kernel, ⟨_, (by decide +kernel : _ = some "a.xsd#r"), by decide, rfl⟩, ⟨_, (by decide +kernel : _ = some "http://a/notes"), by decide, rfl⟩, by decide +kernel⟩

theorem sampleArcroleRef_valid : ValidRoleRef (fun _ => true) "arcroleURI" sampleArcroleRef ∧ sampleArcroleRef.attr? "roleURI" = none :=
  ⟨⟨by decide +kernel, by decide +kernel, by decide +kernel, ⟨_, (by decide +kernel : _ = some "a.xsd#r"), by decide, rfl⟩, ⟨_, (by decide +kernel : _ = some "http://a/explains"), by decide, rfl⟩,
    by decide +kernel⟩, by decide +kernel⟩

example : (∀ x ∈ [sampleRoleRef], ValidRoleRef (fun _ => true) "roleURI" x) ∧ ∀ x ∈ [sampleArcroleRef], ValidRoleRef (fun _ => true) "arcroleURI" x ∧ x.attr? "roleURI" = none :=
  ⟨fun x hx => by rw [List.mem_singleton.1 hx]; exact sampleRoleRef_valid, fun x hx => by rw [List.mem_singleton.1 hx]; exact sampleArcroleRef_valid⟩

end Brel
