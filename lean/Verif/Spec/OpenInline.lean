import Verif.Model.OpenInline
import Verif.Spec.Open
import Verif.Spec.InlineInstance
import Verif.Spec.Footnotes
import Verif.Spec.RoleRefs
import Verif.Spec.XmlSource

/-! A valid inline filing, and what it says: everything in terms of its documents. -/

namespace Brel
open Spec

/-- A word of a text: a piece without white space that cannot be made longer. -/
def Spec.IsWord (s w : List Char) : Prop :=
  w ≠ [] ∧ (∀ c ∈ w, pySpace c = false) ∧ ∃ pre post, s = pre ++ w ++ post ∧ (∀ c ∈ pre.getLast?, pySpace c = true) ∧ (∀ c ∈ post.head?, pySpace c = true)

/-- The attribute of the element names the id. -/
def Spec.Names (x : XNode) (n i : String) : Prop := ∃ v, x.attr? n = some v ∧ IsWord v.toList i.toList

/-- The inline documents of a filing. -/
def inlineDocs (docs : List FilingDoc) : List InlineDoc := (docs.map (·.inline)).filter isInstance

/-- A relationship from facts to footnotes; its order is a number, and its roles, if it has any, are URIs. -/
structure ValidRelationship (validUri : String → Bool) (float : String → Option Rat) (ds : List InlineDoc) (x : XNode) : Prop where
  froms : (∃ i, Names x "fromRefs" i) ∧ ∀ i, Names x "fromRefs" i → ∃ e ∈ inlineFacts ds, e.node.attr? "id" = some i
  tos : (∃ i, Names x "toRefs" i) ∧ ∀ i, Names x "toRefs" i → ∃ e ∈ inlineFootnotes ds, e.node.attr? "id" = some i
  order : ∃ v q, x.attr? "order" = some v ∧ v ≠ "" ∧ float v = some q
  roles : ∀ a ∈ ["arcrole", "linkRole"], ∀ r, x.attr? a = some r → r ≠ "" ∧ validUri r = true

/-- The footnotes have an id and a language, and a URI for a role, if they have one; role references and relationships are valid. -/
structure ValidNotes (validUri : String → Bool) (float : String → Option Rat) (ds : List InlineDoc) : Prop where
  ids : ∀ e ∈ inlineFootnotes ds, ∃ i, e.node.attr? "id" = some i ∧ i ≠ ""
  roles : ∀ e ∈ inlineFootnotes ds, ∀ r, e.node.attr? "footnoteRole" = some r → validUri r = true
  languages : ∀ e ∈ inlineFootnotes ds, ∃ l, e.langs.findSome? id = some l ∧ l ≠ ""
  roleRefs : ∀ x ∈ resourceElems ds "link:roleRef", ValidRoleRef validUri "roleURI" x
  arcroleRefs : ∀ x ∈ resourceElems ds "link:arcroleRef", ValidRoleRef validUri "arcroleURI" x ∧ x.attr? "roleURI" = none
  relationships : ∀ x ∈ resourceElems ds "ix:relationship", ValidRelationship validUri float ds x

/-- A valid inline filing. Its ids are distinct, and all facts have one. -/
structure ValidInlineFiling (dateOf : String → Option Date) (dig : Char → Option Nat) (flt : String → Option Bool) (validUri : String → Bool) (float : String → Option Rat) (docs : List FilingDoc) :
    Prop where
  schemas : ValidSchemas (docs.map (·.doc))
  inline : ValidInline (taxonomyConcept (docs.map (·.doc))) dateOf dig flt (taxonomyStore (docs.map (·.doc))) (inlineDocs docs)
  texts : Unambiguous (taxonomyStore (docs.map (·.doc))) (resourceElems (inlineDocs docs) "xbrli:context")
  identified : ∀ e ∈ inlineFacts (inlineDocs docs), e.node.attr? "id" ≠ none
  ids : (allIds (inlineDocs docs) ++ idsOf ((inlineFootnotes (inlineDocs docs)).map (·.node))).Nodup
  notes : ValidNotes validUri float (inlineDocs docs)
  links : ∀ fs : List Fact, fs.map (·.id) = (inlineFacts (inlineDocs docs)).map (fun e => e.node.attr? "id") →
    ValidLinkbases (taxonomyStore (docs.map (·.doc))) (FactStore.run fs) float (docs.map (·.doc.root))
  components : ValidRoles (docs.map (·.doc.root))

/-- The elements that continue an element. -/
def ContinuedBy (ds : List InlineDoc) (e : InlineElem) (cs : List InlineElem) : Prop :=
  (∀ c ∈ cs, c ∈ inlineConts ds) ∧ Spec.Path (continuationOf ((inlineConts ds).map (·.link))) e.link.continuedAt (cs.map (·.link))

/-- The footnote is what the element and its continuations say. -/
structure ShownFootnote (ds : List InlineDoc) (e : InlineElem) (n : Footnote) : Prop where
  id : e.node.attr? "id" = some n.id
  language : e.langs.findSome? _root_.id = some n.lang
  role : n.role = (e.node.attr? "footnoteRole").getD "http://www.xbrl.org/2003/role/footnote"
  title : n.title = e.node.attr? "title"
  content : ∃ cs, ContinuedBy ds e cs ∧ ∃ c, WrittenElem n.content c ∧ textContent c = (e :: cs).flatMap (fun c => visibleText c.nonNumeric.elem)

/-- The link role and the arc role of a relationship. -/
def rolesOf (x : XNode) : String × String :=
  ((x.attr? "linkRole").getD "http://www.xbrl.org/2003/role/link", (x.attr? "arcrole").getD "http://www.xbrl.org/2003/arcrole/fact-footnote")

/-- The filing shows what its documents say, and nothing else: report elements, facts, footnotes, labels, networks and components. There is one network of footnotes for each pair of roles. -/
structure ShowsInline (dateOf : String → Option Date) (dig : Char → Option Nat) (flt : String → Option Bool) (docs : List FilingDoc) (o : OpenedInline) : Prop where
  elements : Rel2 (DeclaredAs (docs.map (·.doc))) (counting (schemaDeclarations (docs.map (·.doc)))) (o.elements.byName.map (·.2))
  facts : Rel2 (fun e f => ∃ cs, (Spec.kindOf e = some .text → ContinuedBy (inlineDocs docs) e cs) ∧
      inlineFactOf (taxonomyConcept (docs.map (·.doc))) dateOf dig flt (taxonomyStore (docs.map (·.doc))) (resourceElems (inlineDocs docs) "xbrli:context")
        (resourceElems (inlineDocs docs) "xbrli:unit") (fun _ => cs.map (·.nonNumeric.elem)) e = some f)
    (inlineFacts (inlineDocs docs)) o.facts.facts.getAll
  footnotes : Rel2 (ShownFootnote (inlineDocs docs)) (inlineFootnotes (inlineDocs docs)) (o.footnotes.footnotes.map (·.2))
  notes : Rel2 (fun k net => ∀ i j, j ∈ net.childrenOf i ↔ ∃ x ∈ resourceElems (inlineDocs docs) "ix:relationship", rolesOf x = k ∧ Names x "fromRefs" i ∧ Names x "toRefs" j)
    (firstOccurrences ((resourceElems (inlineDocs docs) "ix:relationship").map rolesOf)) o.footnotes.networks
  labels : ∀ q lab, lab ∈ o.networks.labelsOf q ↔ ∃ up link role, HasLink (docs.map (·.doc.root)) "labelLink" role up link ∧
    ∃ l m, Joined link l m ∧ Locates (taxonomyStore (docs.map (·.doc))) link l q ∧ Labelled up link m lab
  objects : ∀ p ∈ unitedTags, ∀ role q, o.networks.Shows role p.2 q ↔ ∃ up link l, HasLink (docs.map (·.doc.root)) p.1 role up link ∧ Locates (taxonomyStore (docs.map (·.doc))) link l q
  relations : ∀ p ∈ unitedTags, ∀ role q q', o.networks.ShowsBelow role p.2 q q' ↔ ∃ up link l m, HasLink (docs.map (·.doc.root)) p.1 role up link ∧ Joined link l m ∧
    Locates (taxonomyStore (docs.map (·.doc))) link l q ∧ Locates (taxonomyStore (docs.map (·.doc))) link m q'
  components : Rel2 (ShownComponent o.networks) ((docs.map (·.doc.root)).flatMap declaredRoles) o.components

/-- Nothing was reported but one fault of each role reference and two of each arc role reference. -/
structure OpenedInline.Reports (docs : List FilingDoc) (o : OpenedInline) : Prop where
  elements : o.elements.errs = []
  facts : o.facts.ps.errs = []
  footnotes : o.footnotes.reports = (resourceElems (inlineDocs docs) "link:roleRef").flatMap (fun _ => ["ROLEREF_INVALID_LINKTYPE"]) ++
    (resourceElems (inlineDocs docs) "link:arcroleRef").flatMap (fun _ => ["ROLEREF_INVALID_LINKTYPE", "ROLEREF_MISSING_ROLE_URI_ATTRIBUTE"])
  links : o.networks.reports = [] ∧ o.networks.networks.errs = []
  components : o.componentReports = []

end Brel
