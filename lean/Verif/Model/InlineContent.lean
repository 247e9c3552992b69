import Verif.Model.Dates

/-!
Model of `brel/parsers/XHMTL/elements/parse_continuation_chain.py` and of
`brel/parsers/XHMTL/elements/parse_non_numeric.py`.
Simplifications: an lxml element is its prefixed tag, its attributes, its text, its tail and its child elements; comments and
processing instructions are not modelled; nor are namespace declarations in serialised elements.
`deepcopy`, `append` and `remove` of lxml move or copy an element together with its tail.
-/

namespace Brel

/-- An lxml element. `name` is `get_prefix_localname_tag(element)`. -/
inductive Elem where
  | mk (name : String) (attrs : List (String × String)) (text tail : Option (List Char)) (children : List Elem)
  deriving Repr

namespace Elem

/-- `get_prefix_localname_tag(e)` -/
def name : Elem → String | .mk n _ _ _ _ => n
/-- `e.attrib` -/
def attrs : Elem → List (String × String) | .mk _ a _ _ _ => a
/-- `e.text` -/
def text : Elem → Option (List Char) | .mk _ _ t _ _ => t
/-- `e.tail` -/
def tail : Elem → Option (List Char) | .mk _ _ _ t _ => t
/-- `list(e)` -/
def children : Elem → List Elem | .mk _ _ _ _ c => c
/-- `e.text = t` -/
def setText (t : Option (List Char)) : Elem → Elem | .mk n a _ tl c => .mk n a t tl c
/-- `e.tail = t` -/
def setTail (t : Option (List Char)) : Elem → Elem | .mk n a tx _ c => .mk n a tx t c
/-- The element with other children. -/
def setChildren (c : List Elem) : Elem → Elem | .mk n a tx tl _ => .mk n a tx tl c

end Elem

/-- Change the last element of a list. -/
def modifyLast {α : Type} (f : α → α) : List α → List α
  | [] => []
  | [x] => [f x]
  | x :: xs => x :: modifyLast f xs

/-- parse_continuation_chain.py 125-138 (`append_text_to_parent`) -/
def appendText (parent : Elem) : Option (List Char) → Elem
  | none => parent
  | some t =>
    match parent.children with
    | [] => parent.setText (some (parent.text.getD [] ++ t))
    | cs => parent.setChildren (modifyLast (fun c => c.setTail (some (c.tail.getD [] ++ t))) cs)

/-- `for child in children: parent.append(child)` -/
def appendAll (parent : Elem) (cs : List Elem) : Elem := parent.setChildren (parent.children ++ cs)

mutual
/-- parse_continuation_chain.py 141-164 (`extract_relevant_content_per_element`): first the clone without children. -/
def relevant : Elem → Elem
  | .mk n a t tl kids => relevantKids (.mk n a t tl []) kids

/-- parse_continuation_chain.py 144-162: the loop over the children. -/
def relevantKids : Elem → List Elem → Elem
  | acc, [] => acc
  | acc, c :: cs =>
    if c.name = "ix:exclude" then relevantKids (appendText acc c.tail) cs
    else if startsWith c.name.toList "ix:".toList then
      relevantKids (appendText (appendAll (appendText acc (relevant c).text) (relevant c).children) (relevant c).tail) cs
    else relevantKids (appendAll acc [relevant c]) cs
end

/-- parse_continuation_chain.py 170-175: the loop of `merge_relevant_content`. -/
def mergeInto (acc : Elem) : List Elem → Elem
  | [] => acc
  | e :: es => mergeInto (appendAll (appendText acc e.text) e.children) es

/-- parse_continuation_chain.py 167-177 (`merge_relevant_content`): `elements[0]` raises `IndexError` on an empty list. -/
def mergeRelevant : List Elem → Except PyErr Elem
  | [] => .error .indexError
  | e :: es => .ok (mergeInto ((e.setChildren []).setText none) (e :: es))

/-- parse_continuation_chain.py 180-187 (`extract_relevant_content_from_continuation_chain`) -/
def relevantContent (chain : List Elem) : Except PyErr Elem := mergeRelevant (chain.map relevant)

mutual
/-- parse_non_numeric.py 60-69 (`extract_text_content`) -/
def textContent : Elem → List Char
  | .mk _ _ t _ kids => t.getD [] ++ textKids kids

/-- parse_non_numeric.py 64-67: the loop over the children. -/
def textKids : List Elem → List Char
  | [] => []
  | c :: cs => textContent c ++ c.tail.getD [] ++ textKids cs
end

/-- `s.replace(c, r)` for a single character. -/
def replaceChar (c : Char) (r : List Char) (s : List Char) : List Char := s.flatMap (fun x => if x = c then r else [x])

/-- parse_non_numeric.py 21-27 -/
def escapes : List (Char × List Char) :=
  [('&', chars! "&amp;"), ('<', chars! "&lt;"), ('>', chars! "&gt;"), ('"', chars! "&quot;"), ('\'', chars! "&apos;")]

/-- parse_non_numeric.py 20-32 (`convert_escaped_characters`) -/
def convertEscaped (s : List Char) : List Char := escapes.foldl (fun s p => replaceChar p.1 p.2 s) s

mutual
/-- parse_non_numeric.py 35-43 (`convert_escaped_characters_recursive`) -/
def convertElem : Elem → Elem
  | .mk n a t tl kids => .mk n a (t.map convertEscaped) (tl.map convertEscaped) (convertKids kids)

/-- parse_non_numeric.py 42-43 -/
def convertKids : List Elem → List Elem
  | [] => []
  | c :: cs => convertElem c :: convertKids cs
end

/-- A reference by number. -/
def numberRef (c : Char) : List Char := chars! "&#" ++ (toString c.toNat).toList ++ [';']

/-- What `etree.tostring` writes for a character of text: the encoding is ASCII. -/
def serialChar (c : Char) : List Char :=
  if c = '&' then chars! "&amp;" else if c = '<' then chars! "&lt;" else if c = '>' then chars! "&gt;"
  else if c = '\r' then numberRef c else if c.toNat < 128 then [c] else numberRef c

/-- What `etree.tostring` writes for a character of an attribute value. -/
def serialAttrChar (c : Char) : List Char :=
  if c = '"' then chars! "&quot;" else if c = '\t' ∨ c = '\n' then numberRef c else serialChar c

/-- The attributes of a serialised element. -/
def serialAttrs (as : List (String × String)) : List Char :=
  as.flatMap (fun p => ' ' :: p.1.toList ++ chars! "=\"" ++ p.2.toList.flatMap serialAttrChar ++ ['"'])

mutual
/-- `etree.tostring(e).decode()`: with the tail. Namespace declarations, comments and processing instructions are left out. -/
def serial : Elem → List Char
  | .mk n a t tl kids =>
    (if t.getD [] = [] ∧ kids.isEmpty then '<' :: n.toList ++ serialAttrs a ++ chars! "/>"
     else '<' :: n.toList ++ serialAttrs a ++ ['>'] ++ (t.getD []).flatMap serialChar ++ serialKids kids ++ chars! "</" ++ n.toList ++ ['>']) ++
    (tl.getD []).flatMap serialChar

/-- The children of a serialised element. -/
def serialKids : List Elem → List Char
  | [] => []
  | c :: cs => serial c ++ serialKids cs
end

/-- parse_non_numeric.py 46-57 (`escape_content`) -/
def escapeContent (content : Elem) : List Char :=
  let c := convertElem content
  c.text.getD [] ++ serialKids c.children

/-- The attributes of an `ix:nonNumeric` element that parse_non_numeric.py 72-118 reads. -/
structure NonNumericElem where
  elem : Elem
  id : Option String
  escape : Option String
  format : Option String

/-- parse_non_numeric.py 72-118 (`parse_non_numeric_fact_element`): value and id of the fact, the reported errors and the ids seen so far. -/
def parseNonNumeric (dig : Char → Option Nat) (e : NonNumericElem) (chain : List Elem) (taken : List String) :
    Except PyErr (List Char × Option String × ErrNames × List String) :=
  let dup : ErrNames := match e.id with
    | some i => if i ∈ taken then ["IXBRL_DUPLICATE_ELEMENT_ID"] else []
    | none => []
  let taken' := match e.id with
    | some i => appendNew taken i
    | none => taken
  let (escape, escErr) : Option String × ErrNames := match truthy e.escape with
    | some x => if x ∈ ["true", "false"] then (some x, []) else (some "true", ["IXBRL_INVALID_NON_NUMERIC_FACT_ESCAPE_ATTRIBUTE_VALUE"])
    | none => (e.escape, [])
  do
    let content ← relevantContent (e.elem :: chain)
    let value := if escape = some "true" then escapeContent content else textContent content
    let r ← parseNonNumerical dig value e.format
    .ok (r.1, e.id, dup ++ escErr ++ r.2, taken')

/-! ## Continuation chains -/

/-- An element that can continue or be continued. `oid` is the identity of the lxml element, `inside` the elements that
`iterdescendants("{*}continuation", element.tag)` yields for it. -/
structure ContElem where
  oid : Nat
  name : String
  id : Option String
  continuedAt : Option String
  inside : List Nat
  deriving DecidableEq, Repr

/-- parse_continuation_chain.py 45: entering one element in the index. -/
def indexStep (d : Dict String ContElem) (c : ContElem) : Dict String ContElem :=
  match c.id with
  | none => d
  | some i => d.set i c

/-- parse_continuation_chain.py 26-46: the error for one element, and the ids seen. -/
def idStep (acc : ErrNames × List String) (c : ContElem) : ErrNames × List String :=
  match c.id with
  | none => (acc.1 ++ ["IXBRL_CONTINUATION_WITHOUT_ID"], acc.2)
  | some i => (acc.1 ++ (if i ∈ acc.2 then ["IXBRL_DUPLICATE_ELEMENT_ID"] else []), appendNew acc.2 i)

/-- parse_continuation_chain.py 18-48 (`build_continuation_element_index`): the index, the errors and the ids seen. -/
def buildIndex (cs : List ContElem) (taken : List String) : Dict String ContElem × ErrNames × List String :=
  let r := cs.foldl idStep ([], taken)
  (cs.foldl indexStep [], r.1, r.2)

/-- State of the loops of parse_continuation_chain.py 70-102. -/
structure ChainState where
  chain : List ContElem
  used : List String
  errs : ErrNames
  deriving DecidableEq, Repr

/-- parse_continuation_chain.py 76-100: the `while` loop, with at most `fuel` rounds; `none` when they do not suffice. -/
def followChain (idx : Dict String ContElem) : Nat → Option String → ChainState → Option ChainState
  | _, none, st => some st
  | 0, some _, _ => none
  | fuel + 1, some i, st =>
    let errs := st.errs ++ (if i ∈ st.used then ["IXBRL_REUSED_CONTINUATION"] else [])
    match idx.get? i with
    | none => some { st with errs := errs ++ ["IXBRL_INVALID_CONTINUATION_ID"] }
    | some c => followChain idx fuel c.continuedAt { chain := st.chain ++ [c], used := appendNew st.used i, errs := errs }

/-- parse_continuation_chain.py 70-102: the loop over the elements, with the ids used so far and the errors. -/
def followAll (idx : Dict String ContElem) (fuel : Nat) : List ContElem → List String → ErrNames → Option (List (ContElem × List ContElem) × List String × ErrNames)
  | [], used, errs => some ([], used, errs)
  | e :: es, used, errs => do
    let st ← followChain idx fuel e.continuedAt ⟨[], used, errs⟩
    let r ← followAll idx fuel es st.used st.errs
    some ((e, st.chain) :: r.1, r.2.1, r.2.2)

/-- parse_continuation_chain.py 104-114 -/
def nestedErrors (chains : List (ContElem × List ContElem)) : ErrNames :=
  chains.flatMap (fun p => (p.1 :: p.2).flatMap (fun e => (e.inside.filter (fun o => decide (o ∈ (p.1 :: p.2).map (·.oid)))).map
    (fun _ => "IXBRL_INVALID_DESCENDANT_IN_CONTINUATION_CHAIN")))

/-- parse_continuation_chain.py 51-122 (`create_continuation_chains`): the chains, the errors and the ids seen; `none` when `fuel` rounds of the inner loop do not suffice. -/
def createChains (fuel : Nat) (facts footnotes conts : List ContElem) (taken : List String) :
    Option (List (ContElem × List ContElem) × ErrNames × List String) :=
  let b := buildIndex conts taken
  match followAll b.1 fuel (facts.filter (fun f => isInfix "nonNumeric".toList f.name.toList) ++ footnotes) [] [] with
  | none => none
  | some r =>
    let unused := b.1.keys.filter (fun k => decide (k ∉ r.2.1))
    some (r.1, b.2.1 ++ r.2.2 ++ nestedErrors r.1 ++ (if unused = [] then [] else ["IXBRL_UNUSED_CONTINUATION_ELEMENTS"]), b.2.2)

end Brel
