import Verif.Spec.Open

/-! Two ways to open the same documents, and what is the same about them. -/

namespace Brel

/-- Things can be told apart: every document has a URI of its own, and no two declarations that yield a report element have the same name or the same id. -/
structure ToldApart (docs : List SchemaDoc) : Prop where
  uris : (docs.map (·.uri)).Nodup
  names : (((schemaDeclarations docs).filter Declaration.yields).map Declaration.name).Nodup
  ids : (((schemaDeclarations docs).filter Declaration.yields).filterMap (fun d => d.x.attr? "id")).Nodup

/-- The components have the same URI and the same description, and networks of the same classes. -/
structure SameComponent (c c' : ComponentOf Network) : Prop where
  uri : c.uri = c'.uri
  info : c.info = c'.info
  networks : ∀ k ∈ [NodeKind.presentation, .calculation, .definition], (c.ofKind k).isSome = (c'.ofKind k).isSome

/-- The filings show the same, up to the order of report elements, facts, labels and components: the same report elements with the same data, the same facts, the same labels, the same
components, and in the networks of every role the same report elements with the same report elements below them. -/
structure SameFiling (o o' : OpenedFiling) : Prop where
  elements : (o.elements.byName.map (·.2)).Perm (o'.elements.byName.map (·.2))
  facts : o.facts.facts.getAll.Perm o'.facts.facts.getAll
  labels : ∀ q lab, lab ∈ o.networks.labelsOf q ↔ lab ∈ o'.networks.labelsOf q
  objects : ∀ p ∈ unitedTags, ∀ role q, o.networks.Shows role p.2 q ↔ o'.networks.Shows role p.2 q
  relations : ∀ p ∈ unitedTags, ∀ role q q', o.networks.ShowsBelow role p.2 q q' ↔ o'.networks.ShowsBelow role p.2 q q'
  components : ∃ cs, o'.components.Perm cs ∧ Rel2 SameComponent o.components cs

end Brel
