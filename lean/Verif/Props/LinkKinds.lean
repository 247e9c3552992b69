import Verif.Props.Link

namespace Brel

variable {k : LinkKind} {so : SetOrder} {linkRole : String} {h : Heap} {arcs : List Arc} {ends : List LinkEnd} {res : LinkResult}

/-! ## C69: links show objects of their kind only; definition links are shown twice -/

theorem refuses_iff (k : LinkKind) (t : Target) : k.refuses t = none ↔ Admissible k t := by
  cases k <;> cases t <;> simp [LinkKind.refuses, Admissible]
  rename_i q c
  cases c <;> simp

theorem endNodes_admissible {kept : List Arc} {l : String} {t : Target} {r : List (NetNode × Bool)} (hr : endNodes k so kept l t = .ok r) :
    r ≠ [] → Admissible k t := by
  intro hne
  have key : ∀ x n, createNode k l x t = .ok n → Admissible k t := fun x n hc => (refuses_iff k t).1 (createNode_data.1 hc).2
  unfold endNodes at hr
  dsimp only at hr
  split at hr
  · cases hc : createNode k l none t with
    | error e => rw [hc] at hr; cases hr
    | ok n => exact key _ _ hc
  · split at hr
    · rw [mapM_ok_iff] at hr
      obtain ⟨b, hb⟩ := List.exists_mem_of_ne_nil r hne
      obtain ⟨a, _, hab⟩ := hr.mem_right b hb
      cases hc : createNode k l (((incident kept l).filter (fun a => a.to = l) ++ (incident kept l).filter (fun a => !decide (a.to = l))).find?
          (fun x => x.role = a)) t with
      | error e => rw [hc] at hab; cases hab
      | ok n => exact key _ _ hc
    · cases hc : createNode k l ((arcsTo kept l).head?.or (arcsFrom kept l).head?) t with
      | error e => rw [hc] at hr; cases hr
      | ok n => exact key _ _ hc

theorem endNodes_ne_nil {kept : List Arc} {l : String} {t : Target} {r : List (NetNode × Bool)} (hr : endNodes k so kept l t = .ok r) : r ≠ [] := by
  rintro rfl
  obtain ⟨-, h1, h2⟩ := endNodes_ok hr
  cases hk : k.physical with
  | false => simpa using h1 hk
  | true =>
    have hp : [] = rolesAt kept l := (List.nil_perm.1 (h2 hk)).symm
    unfold rolesAt at hp
    split at hp <;> cases hp

/-- C69: a link can only be read when every locator and resource with an object leads to an object of the kind the link is about. -/
theorem C69_objects (hp : parseLink k so linkRole h arcs ends = .ok res) (e : LinkEnd) (he : e ∈ ends) (t : Target) (ht : e.target = some t) :
    Admissible k t := by
  obtain ⟨P⟩ := parseLink_ok hp
  obtain ⟨r, hr, hok⟩ := P.ends_ok.mem_left (e.label, t) (List.mem_filterMap.2 ⟨e, he, by rw [ht]; rfl⟩)
  exact endNodes_admissible hok (endNodes_ne_nil hok)

/-- C69: reading a link never reports an object of another kind: it raises an exception. -/
theorem C69_reported_false : ∃ (arcs : List Arc) (ends : List LinkEnd),
    parseLink .calculation .insertion "r" [] arcs ends = .error .typeError ∧
    ∀ e ∈ ends, ∃ q c, e.target = some (.element q c) :=
  ⟨[{ frm := "a", to := "b", role := "s", weight := .num 1 }],
   [⟨"a", some (.element ⟨"u", "p", "A"⟩ true)⟩, ⟨"b", some (.element ⟨"u", "p", "Abstract"⟩ false)⟩], by decide +kernel, by simp⟩

/-- C69: the tag of a link decides which networks are made: the results of the kinds of networks one after the other. -/
theorem C69_tags (tag : String) (ks : List LinkKind) (htag : (tag, ks) ∈ tagKinds) :
    (∀ k, ks = [k] → parseXmlLink (linkTag tag) so linkRole h arcs ends =
      (parseLink k so linkRole h arcs ends).map (fun r => (r.heap, r.networks, r.labels))) ∧
    (∀ k k', ks = [k, k'] → parseXmlLink (linkTag tag) so linkRole h arcs ends =
      (parseLink k so linkRole h arcs ends).bind (fun r => (parseLink k' so linkRole r.heap arcs ends).map
        (fun r' => (r'.heap, r.networks ++ r'.networks, r.labels ++ r'.labels)))) := by
  have hks : linkKinds (linkTag tag) = ks := by
    simp only [tagKinds, List.mem_cons, Prod.mk.injEq, List.not_mem_nil, or_false] at htag
    rcases htag with ⟨rfl, rfl⟩ | ⟨rfl, rfl⟩ | ⟨rfl, rfl⟩ | ⟨rfl, rfl⟩ | ⟨rfl, rfl⟩ | ⟨rfl, rfl⟩ <;> decide +kernel
  unfold parseXmlLink
  rw [hks]
  constructor
  · rintro k rfl
    simp only [List.foldlM_cons, List.foldlM_nil]
    cases parseLink k so linkRole h arcs ends <;> simp [bind, Except.bind, Except.map, pure, Except.pure]
  · rintro k k' rfl
    simp only [List.foldlM_cons, List.foldlM_nil]
    cases h1 : parseLink k so linkRole h arcs ends with
    | error e => simp [bind, Except.bind]
    | ok r => cases h2 : parseLink k' so linkRole r.heap arcs ends <;> simp [bind, Except.bind, Except.map, pure, Except.pure, h2]

/-- C69: a definition link is shown by physical and by logical networks. -/
theorem C69_definition_twice {nets : List Network} {heap : Heap} {labels : List (QName × Nat)}
    (hp : parseXmlLink (linkTag "definitionLink") so linkRole h arcs ends = .ok (heap, nets, labels)) :
    ∃ r r', parseLink .physicalDefinition so linkRole h arcs ends = .ok r ∧ parseLink .logicalDefinition so linkRole r.heap arcs ends = .ok r' ∧
      nets = r.networks ++ r'.networks ∧ (∀ n ∈ r.networks, n.physical = true) ∧ (∀ n ∈ r'.networks, n.physical = false) := by
  rw [(C69_tags "definitionLink" [.physicalDefinition, .logicalDefinition] (by simp [tagKinds])).2 _ _ rfl] at hp
  cases h1 : parseLink .physicalDefinition so linkRole h arcs ends with
  | error e => rw [h1] at hp; cases hp
  | ok r =>
    rw [h1] at hp
    simp only [Except.bind] at hp
    cases h2 : parseLink .logicalDefinition so linkRole r.heap arcs ends with
    | error e => rw [h2] at hp; cases hp
    | ok r' =>
      rw [h2] at hp
      simp only [Except.map, Except.ok.injEq, Prod.mk.injEq] at hp
      refine ⟨r, r', rfl, h2, hp.2.1.symm, fun n hn => ?_, fun n hn => ?_⟩
      · exact ((C20_networks h1).1 n hn).2.2.1
      · exact ((C20_networks h2).1 n hn).2.2.1

/-- A definition link with one arc, shown by two networks. -/
example : (parseXmlLink (linkTag "definitionLink") .insertion "r" [] [{ frm := "a", to := "b", role := "dim" }]
    [⟨"a", some (.element ⟨"u", "p", "A"⟩ true)⟩, ⟨"b", some (.element ⟨"u", "p", "B"⟩ false)⟩]).map (fun r => r.2.1.map (·.physical)) =
    .ok [true, false] := by decide +kernel

end Brel
