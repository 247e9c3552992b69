import Verif.Model.PrettyPrint
import Verif.Spec.Printing
import Verif.Spec.Components
import Verif.Spec.Combine
import Verif.Lemmas.Link

/-! What printing a component or a list shows (C131). -/

namespace Brel

/-- The lines of a network: two lines about it, one for every place of the network, and an empty one. -/
def NetworkLines (env : PrintEnv) (n : Network) (lines : List String) : Prop :=
  ∃ places roles, DepthFirst env.heap.children n.roots places ∧ n.getArcRoles env.heap env.limit = .ok roles ∧
    lines = ("Network (link role: " ++ n.linkRole ++ "), link name: " ++ (env.network n).linkName) ::
      ("arc roles: " ++ (env.network n).arcRoles roles ++ ", arc name: " ++ (env.network n).arcName n.roots.head?) :: places.map (placeLine env.nodes env.heap.children n.roots) ++ [""]

/-- The networks of a component in the order in which they are printed. -/
def printedKinds : List NodeKind := [.presentation, .calculation, .definition]

/-- The lines of a component: its URI, its description, its networks, each followed by an empty line, or a note that there are none, and an empty line. -/
def ComponentLines (env : PrintEnv) (c : ComponentOf Network) (lines : List String) : Prop :=
  ∃ parts, Rel2 (NetworkLines env) (printedKinds.filterMap c.ofKind) parts ∧
    lines = ["[bold]Component:[/bold] " ++ c.uri, "[italic]Info:[/italic] " ++ c.info] ++ parts.flatMap (· ++ [""]) ++
      (if ∀ k ∈ printedKinds, c.ofKind k = none then ["[yellow]No networks in this component.[/yellow]"] else []) ++ [""]

/-- The networks of the component are less deep than the limit. -/
def ComponentFits (env : PrintEnv) (c : ComponentOf Network) : Prop :=
  ∀ k ∈ printedKinds, ∀ n, c.ofKind k = some n → ∀ root ∈ n.roots, ∀ b m, Path env.heap.children root b m → m < env.limit

/-- A list that starts with an object that is neither a fact nor a component, or an object that is not supported. -/
inductive Unsupported : Printable → Prop where
  | other : Unsupported .other
  | list {x : Printable} {xs : List Printable} : (∀ f, x ≠ .fact f) → (∀ c, x ≠ .component c) → Unsupported (.list (x :: xs))

end Brel
