/-!
# What a URI is (RFC 3986, section 3 and 4.1)

The five parts of a URI reference and how they are written. Which characters are allowed inside a part is only stated as far as it decides where the parts end.
-/
namespace Brel
namespace Spec

/-- The parts of a URI reference. -/
structure UriParts where
  scheme : Option (List Char)
  authority : Option (List Char)
  path : List Char
  query : Option (List Char)
  fragment : Option (List Char)

/-- RFC 3986, section 5.3: how the parts are put together. -/
def UriParts.text (p : UriParts) : List Char :=
  (match p.scheme with | some s => s ++ [':'] | none => []) ++
  ((match p.authority with | some a => '/' :: '/' :: a | none => []) ++
  (p.path ++
  ((match p.query with | some q => '?' :: q | none => []) ++
  (match p.fragment with | some f => '#' :: f | none => []))))

/-- The letters of ASCII. -/
def Letter (c : Char) : Prop := ('a' ≤ c ∧ c ≤ 'z') ∨ ('A' ≤ c ∧ c ≤ 'Z')

/-- A scheme: a letter, followed by letters, digits, plus, minus and dot. -/
def IsScheme (s : List Char) : Prop :=
  ∃ c r, s = c :: r ∧ Letter c ∧ ∀ d ∈ r, Letter d ∨ ('0' ≤ d ∧ d ≤ '9') ∨ d ∈ ['+', '-', '.']

/-- The rules of RFC 3986 on where the parts end. -/
structure UriParts.WellFormed (p : UriParts) : Prop where
  scheme : ∀ s, p.scheme = some s → IsScheme s
  authority : ∀ a, p.authority = some a → ∀ c ∈ a, c ≠ '/' ∧ c ≠ '?' ∧ c ≠ '#'
  path : ∀ c ∈ p.path, c ≠ '?' ∧ c ≠ '#'
  query : ∀ q, p.query = some q → '#' ∉ q
  /-- after an authority, the path is empty or begins with a slash -/
  rooted : p.authority ≠ none → p.path = [] ∨ ∃ r, p.path = '/' :: r
  /-- without an authority, the path does not begin with two slashes -/
  slashes : p.authority = none → ∀ r, p.path ≠ '/' :: '/' :: r
  /-- without scheme and authority, the first segment of the path has no colon -/
  colon : p.scheme = none → p.authority = none → ':' ∉ p.path.takeWhile (· ≠ '/')
  /-- no part has a space, a control character or a character that is not shown -/
  visible : ∀ c ∈ p.text, 32 < c.toNat

end Spec
end Brel
