import Verif.Model.InlineContent

/-! Which texts are the XML source of a piece of content. -/

namespace Brel.Spec

/-- The five references with a name. -/
def namedReferences : List (Char × List Char) :=
  [('&', chars! "&amp;"), ('<', chars! "&lt;"), ('>', chars! "&gt;"), ('"', chars! "&quot;"), ('\'', chars! "&apos;")]

/-- `r` writes the character `c`: as it is, if `raw` allows that, or as a reference by name or by number. -/
def WrittenChar (raw : Char → Prop) (c : Char) (r : List Char) : Prop :=
  (raw c ∧ r = [c]) ∨ (c, r) ∈ namedReferences ∨ r = chars! "&#" ++ (toString c.toNat).toList ++ [';']

/-- `s` writes the text: one character after the other. -/
def WrittenText (raw : Char → Prop) (s : List Char) : List Char → Prop
  | [] => s = []
  | c :: t => ∃ r s', WrittenChar raw c r ∧ WrittenText raw s' t ∧ s = r ++ s'

/-- The characters that text may contain as they are. -/
def TextRaw (c : Char) : Prop := c ∉ ['&', '<', '>', '\r']

/-- The characters that the value of an attribute may contain as they are. -/
def AttrRaw (c : Char) : Prop := c ∉ ['&', '<', '>', '"', '\t', '\n', '\r']

/-- `s` writes the attributes. -/
def WrittenAttrs (s : List Char) : List (String × String) → Prop
  | [] => s = []
  | (k, v) :: as => ∃ vs rest, WrittenText AttrRaw vs v.toList ∧ WrittenAttrs rest as ∧ s = ' ' :: k.toList ++ ['=', '"'] ++ vs ++ ['"'] ++ rest

mutual
/-- `s` writes the element and the text after it. -/
def WrittenElem (s : List Char) : Elem → Prop
  | .mk n a t tl kids => ∃ as ts ks tls, WrittenAttrs as a ∧ WrittenText TextRaw ts (t.getD []) ∧ WrittenKids ks kids ∧ WrittenText TextRaw tls (tl.getD []) ∧
      (s = '<' :: n.toList ++ as ++ ['>'] ++ ts ++ ks ++ ['<', '/'] ++ n.toList ++ ['>'] ++ tls ∨ (ts = [] ∧ ks = [] ∧ s = '<' :: n.toList ++ as ++ ['/', '>'] ++ tls))

/-- `s` writes the elements, with the text after each of them. -/
def WrittenKids (s : List Char) : List Elem → Prop
  | [] => s = []
  | c :: cs => ∃ s1 s2, WrittenElem s1 c ∧ WrittenKids s2 cs ∧ s = s1 ++ s2
end

/-- `s` is an XML source of the content of the element. -/
def SourceOf (s : List Char) (e : Elem) : Prop := ∃ ts ks, WrittenText TextRaw ts (e.text.getD []) ∧ WrittenKids ks e.children ∧ s = ts ++ ks

/-- The special characters of XML. -/
def SpecialChar (c : Char) : Prop := c ∈ ['&', '<', '>', '"', '\'']

/-- A text in which the special characters are replaced by their references. -/
def escapedText (s : List Char) : List Char := s.flatMap (fun c => ((namedReferences.find? (fun p => p.1 = c)).map (·.2)).getD [c])

mutual
/-- The element with other texts. -/
def mapTexts (f : List Char → List Char) : Elem → Elem
  | .mk n a t tl kids => .mk n a (t.map f) (tl.map f) (mapTextsKids f kids)

/-- The elements with other texts. -/
def mapTextsKids (f : List Char → List Char) : List Elem → List Elem
  | [] => []
  | c :: cs => mapTexts f c :: mapTextsKids f cs
end

end Brel.Spec
