import Verif.Props.InlineChecks
import Verif.Props.OpenInlineExample
import Verif.Props.Double

/-! Examples for C128: inline filings with a total that is right, with one of zero, and with a dimension. -/

namespace Brel
open Spec

section
variable {dig : Char → Option Nat}

theorem digits_ascii (hdig : ∀ c, IsAsciiDigit c → dig c = some (c.toNat - 48)) {s : List Char} (h : ∀ c ∈ s, IsAsciiDigit c) : DigitsOrNone dig s (digitsOf s) := by
  by_cases hs : s = []
  · subst hs; exact .inl ⟨rfl, rfl⟩
  · exact .inr (digitText_ascii hdig hs h)

/-- A function that reads decimal literals as Python's `float` does, but exactly, meets the condition of `C128_amounts_partial`. -/
theorem exact_reads (T : FloatDigitTable dig) (hdig : ∀ c, IsAsciiDigit c → dig c = some (c.toNat - 48)) : ReadsNumerals (exactOf dig) := by
  have num : ∀ {s : List Char} {x : ℚ}, Spec.Denotes s x → FloatNumberText dig s x := by
    rintro s x ⟨w, f, ⟨hne, hw, hf, hs⟩, rfl⟩
    refine ⟨w, f, [], _, _, 0, digits_ascii hdig hw, digits_ascii hdig hf, .inl ⟨rfl, rfl⟩, .inl hne, ?_, ?_⟩
    · rcases hs with ⟨h1, h2⟩ | ⟨_, h2⟩
      · exact .inl ⟨by simpa using h2, h1⟩
      · exact .inr (by simpa using h2)
    · simp [decimalNumber, natOf_eq_decimalValue]
  refine ⟨fun s x h => (exactOf_iff T s x).2 ?_, rfl, rfl⟩
  rcases h with h | ⟨t, h1, h2⟩
  · exact ⟨[], [], s.toList, [], false, by simp, by simp, by simp, .inl ⟨rfl, rfl⟩, .inl ⟨x, num h, by simp⟩⟩
  · exact ⟨[], ['-'], t, [], true, by simpa using h1, by simp, by simp, .inr (.inr ⟨rfl, rfl⟩), .inl ⟨-x, num h2, by simp⟩⟩

end

namespace InlineChecksExample
open LinkbaseExample InlineExample

def xsns : NsMap := CalcExample.xsns ++ [(some "xbrldt", "http://xbrl.org/2005/xbrldt")]
def axis : XNode := .mk (some "{http://www.w3.org/2001/XMLSchema}element") [("name", "D"), ("id", "p_D"), ("substitutionGroup", "xbrldt:dimensionItem"), ("abstract", "true")] none xsns []
def member : XNode := .mk (some "{http://www.w3.org/2001/XMLSchema}element") [("name", "M"), ("id", "p_M"), ("substitutionGroup", "xbrli:item"), ("type", "nonnum:domainItemType"), ("abstract", "true"),
  ("{http://www.xbrl.org/2003/instance}periodType", "duration")] none xsns []
def schema : SchemaDoc := ⟨"http://ex/a.xsd", .mk (some "{http://www.w3.org/2001/XMLSchema}schema") [("targetNamespace", "u")] none xsns
  [CalcExample.role, CalcExample.item "T" "debit", CalcExample.item "X" "debit", CalcExample.item "Y" "credit", axis, member]⟩
/-- The dimensions of the context of the facts, if there are any. -/
def dims (d : Bool) : List XNode := if d then [xexplicit "u" "p:D" "p:M"] else []
def context (d : Bool) : XNode :=
  .mk (some "{http://www.xbrl.org/2003/instance}context") [("id", "c1")] none ixns [xentity (some "1") "lei" (dims d), xduration "2020-01-01" "2020-12-31"]
def resources (d : Bool) : XNode := ixel "resources" [] ixns [context d, unit]
def header (d : Bool) : XNode := ixel "header" [] ixns [references, resources d]
def page (d : Bool) : SchemaDoc := ⟨"http://ex/i.htm", .mk (some "{http://www.w3.org/1999/xhtml}html") [] none ixns [header d]⟩
def amount (oid : Nat) (id concept : String) (sign scale : Option String) (text : String) : InlineElem :=
  { inlineElem oid (ixel "nonFraction" [("id", id), ("name", concept), ("contextRef", "c1"), ("unitRef", "EUR")] ixns []) text [] with
    nonFraction := ⟨⟨some "ixt:num-dot-decimal", scale, sign, some text⟩, none, some "0", none, none, none, [], none⟩ }
def elems (t x y : InlineElem) : List InlineElem := [t, x, y]
def docs (d : Bool) (es : List InlineElem) : List FilingDoc := [⟨schema, []⟩, ⟨page d, es⟩, ⟨⟨"http://ex/c.xml", ArcsExample.doc ArcsExample.total⟩, []⟩]
def plain (d : Bool) : List SchemaDoc := [schema, page d, ⟨"http://ex/c.xml", ArcsExample.doc ArcsExample.total⟩]
def ds (d : Bool) (es : List InlineElem) : List InlineDoc := [⟨(page d).root, es⟩]

/-- Total, summand, and another one that is subtracted: thousands, a number with grouping, a number. -/
def right : List InlineElem := [amount 1 "f1" "p:T" none (some "3") "1.5", amount 2 "f2" "p:X" none none "2,000", amount 3 "f3" "p:Y" none none "500"]
def negative : List InlineElem := [amount 1 "f1" "p:T" (some "-") none "20", amount 2 "f2" "p:X" none none "10", amount 3 "f3" "p:Y" none none "30"]
def zero : List InlineElem := [amount 1 "f1" "p:T" none none "0", amount 2 "f2" "p:X" none none "30", amount 3 "f3" "p:Y" none none "30"]


theorem plain_is (d : Bool) (es : List InlineElem) : (docs d es).map (·.doc) = plain d := rfl
theorem declarations_are (d : Bool) : schemaDeclarations (plain d) = schemaDeclarations (plain false) := rfl

def store : ElemStore := ElemStore.run [⟨.concept, nm "T", some "p_T", [], 0⟩, ⟨.concept, nm "X", some "p_X", [], 0⟩, ⟨.concept, nm "Y", some "p_Y", [], 0⟩,
  ⟨.dimension, nm "D", some "p_D", [], 0⟩, ⟨.member, nm "M", some "p_M", [], 0⟩]

theorem store_is (d : Bool) : taxonomyStore (plain d) = store := by
  have : taxonomy (plain false) = [⟨.concept, nm "T", some "p_T", [], 0⟩, ⟨.concept, nm "X", some "p_X", [], 0⟩, ⟨.concept, nm "Y", some "p_Y", [], 0⟩,
    ⟨.dimension, nm "D", some "p_D", [], 0⟩, ⟨.member, nm "M", some "p_M", [], 0⟩] := by decide +kernel
  unfold taxonomyStore store
  rw [← this]
  unfold taxonomy
  rw [declarations_are]

theorem schemas_valid (d : Bool) : ValidSchemas (plain d) := by
  refine ⟨?_, ?_, ?_⟩ <;> rw [declarations_are]
  · intro d hd
    have : ∀ d ∈ schemaDeclarations (plain false), (decide (d.ns ≠ "" ∧ '}' ∉ d.ns.toList ∧ d.x.attr? "name" ≠ some "" ∧ '{' ∉ ((d.x.attr? "name").getD "").toList)) = true := by decide +kernel
    have h := this d hd
    rw [decide_eq_true_eq] at h
    exact h
  · intro d hd ha _ k hk
    have : ∀ d ∈ schemaDeclarations (plain false), d.x.attr? "abstract" ≠ some "true" → ∀ k ∈ conceptChecks d.x d.name, k.1 = true := by decide +kernel
    exact this d hd ha k hk
  · intro d hd hg
    have : ∀ d ∈ schemaDeclarations (plain false), isInfix "dimensionItem".toList ((d.x.attr? "substitutionGroup").getD "").toList = true → d.x.ns.get? (some "xbrldt") = some dimensionsNs ∧ d.x.domainRef = none := by
      decide +kernel
    have h := this d hd ((isInfix_iff _ _).2 hg)
    exact ⟨h.1, fun ref hr => by rw [h.2] at hr; cases hr⟩

variable {d : Bool} {es : List InlineElem}

theorem ds_is (d : Bool) (es : List InlineElem) : inlineDocs (docs d es) = ds d es := by cases d <;> rfl
theorem contexts_are (d : Bool) (es : List InlineElem) : resourceElems (ds d es) "xbrli:context" = [context d] := by cases d <;> rfl
theorem units_are (d : Bool) (es : List InlineElem) : resourceElems (ds d es) "xbrli:unit" = [unit] := by cases d <;> rfl
theorem parts_are (d : Bool) : partsOf (context d) = some (xduration "2020-01-01" "2020-12-31", xentity (some "1") "lei" (dims d)) := by cases d <;> rfl

theorem declarations_valid : ValidDeclarations sampleDates store (ds d es) := by
  have hh : headers (ds d es) = [header d] := by cases d <;> rfl
  have hi : headerElems (ds d es) "ix:hidden" = [] := by cases d <;> rfl
  have refs_are : headerElems (ds d es) "ix:references" = [references] := by cases d <;> rfl
  have resources_are : headerElems (ds d es) "ix:resources" = [resources d] := by cases d <;> rfl
  refine ⟨?_, ?_, ?_, ?_, ?_, ?_, ?_, ?_⟩
  · rw [hh]; simp
  · rw [hh]
    intro h hm
    rw [List.mem_singleton.1 hm]
    refine ⟨?_, by cases d <;> decide +kernel, by cases d <;> decide +kernel⟩
    intro x hx
    simp only [header, ixel, XNode.children, List.mem_cons, List.not_mem_nil, or_false] at hx
    rcases hx with rfl | rfl
    · exact ⟨"ix:references", by simp, by rfl⟩
    · exact ⟨"ix:resources", by simp, by rfl⟩
  · rw [resources_are]; simp
  · rw [refs_are]
    intro x hm
    rw [List.mem_singleton.1 hm]
    refine ⟨by simp [references, ixel, XNode.children], ?_⟩
    intro x hx
    simp only [references, ixel, XNode.children, List.mem_cons, List.not_mem_nil, or_false] at hx
    subst hx
    exact ⟨"link:schemaRef", by simp, by rfl⟩
  · rw [hi]; simp
  · rw [resources_are]
    intro x hm
    rw [List.mem_singleton.1 hm]
    intro x hx
    simp only [resources, ixel, XNode.children, List.mem_cons, List.not_mem_nil, or_false] at hx
    rcases hx with rfl | rfl
    · exact ⟨"xbrli:context", by simp, by rfl⟩
    · exact ⟨"xbrli:unit", by simp, by rfl⟩
  · rw [contexts_are]
    intro x hx
    rw [List.mem_singleton.1 hx]
    refine ⟨by rfl, ⟨_, _, parts_are d, by decide +kernel, by rfl, ?_⟩⟩
    cases d
    · intro m hm; cases hm
    · have : segmentOf (xentity (some "1") "lei" (dims true)) = [xexplicit "u" "p:D" "p:M"] := by rfl
      rw [this]
      intro m hm
      rw [List.mem_singleton.1 hm]
      exact ⟨by decide +kernel, by decide +kernel⟩
  · rw [units_are]
    intro x hm
    rw [List.mem_singleton.1 hm]
    exact ⟨by rfl, .simple _ rfl rfl rfl⟩

theorem dates_plain (d : Bool) : PlainDates (context d) := by
  intro p e hp
  rw [parts_are] at hp
  cases hp
  intro c hc t ht
  simp only [xduration, xel, XNode.children, List.mem_cons, List.not_mem_nil, or_false] at hc
  rcases hc with rfl | rfl <;> (cases ht; decide)

theorem unambiguous_none : Unambiguous store [context false] := by
  have hm : membersOf [context false] = [] := by rfl
  have he : entitiesOf [context false] = [("1", "lei")] := by rfl
  refine ⟨?_, ?_, ?_, ?_, ?_⟩
  · intro x hx
    rw [List.mem_singleton.1 hx]
    exact dates_plain false
  · rw [he]
    intro a ha b hb _
    rw [List.mem_singleton.1 ha, List.mem_singleton.1 hb]
  all_goals (rw [hm]; intro m h; cases h)

theorem texts_unambiguous (d : Bool) : Unambiguous store [context d] := by
  cases d
  · exact unambiguous_none
  · exact unambiguous_single _ _ (context true) _ _ (xexplicit "u" "p:D" "p:M") (fun y hy => Or.inl (List.mem_singleton.1 hy)) (parts_are true) rfl (dates_plain true) (by intro a h; cases h; decide)

theorem filing_valid (h1 : inlineFacts (ds d es) = es) (h2 : inlineFootnotes (ds d es) = []) (h3 : inlineConts (ds d es) = []) (h4 : continuable (ds d es) = [])
    (hf : es.all (fun e => (inlineConcept (taxonomyConcept (plain false)) store e.node).isSome && decide (e.node.attr? "contextRef" = some "c1") && decide (e.node.attr? "unitRef" = some "EUR") &&
      decide (Spec.kindOf e = some .number) && (match parseNonFraction asciiDigit sampleFloat e.num [] with | .ok r => r.2.1.isEmpty | .error _ => false)) = true)
    (ho : (es.map (·.cont.oid)).Nodup) (hid : es.all (fun e => (e.node.attr? "id").isSome) = true) (hids : (allIds (ds d es)).Nodup)
    (hlinks : (plain d).all (fun r => r.root.descendants.all (fun x => decide (x.xlinkAttr "type" ≠ some "extended") || checkLink store (exactOf asciiDigit) CalcExample.rank x)) = true)
    (hplain : PlainLinks ((plain d).map (·.root))) (hroles : ValidRoles ((plain d).map (·.root))) :
    ValidInlineFiling sampleDates asciiDigit sampleFloat (fun _ => true) (exactOf asciiDigit) (docs d es) := by
  have hcon : taxonomyConcept (plain d) = taxonomyConcept (plain false) := by unfold taxonomyConcept; rw [declarations_are]
  refine ⟨schemas_valid d, ?_, ?_, ?_, ?_, ?_, ?_, hroles⟩
  · rw [plain_is, ds_is, store_is, hcon]
    refine ⟨declarations_valid, ?_, ?_, ?_⟩
    · rw [h3, h4]
      refine ⟨by simp, by simp, by simp, ?_, by simp, by simp⟩
      intro i n hv
      cases hv with
      | succ h _ =>
        obtain ⟨c, hc, hn⟩ := h
        exact absurd (continuationOf_mem hc).1 (by simp)
    · rw [h1]
      intro e he
      have := List.all_eq_true.1 hf e he
      simp only [Bool.and_eq_true, decide_eq_true_eq] at this
      obtain ⟨⟨⟨⟨g1, g2⟩, g3⟩, g4⟩, g5⟩ := this
      refine ⟨g1, ⟨"c1", g2, by rw [contexts_are]; rfl⟩, ?_, .inr ⟨g4, ⟨"EUR", g3, by decide⟩, ?_⟩⟩
      · intro u hu _
        rw [g3] at hu
        cases hu
        rw [units_are]
        decide +kernel
      · cases hp : parseNonFraction asciiDigit sampleFloat e.num [] with
        | error _ => rw [hp] at g5; cases g5
        | ok r =>
          rw [hp] at g5
          exact ⟨r, hp, List.isEmpty_iff.1 g5⟩
    · rw [h1, h2, h3]
      exact ⟨by simpa using ho, by simp⟩
  · rw [plain_is, ds_is, store_is, contexts_are]
    exact texts_unambiguous d
  · rw [ds_is, h1]
    intro e he hn
    have := List.all_eq_true.1 hid e he
    rw [hn] at this
    cases this
  · rw [ds_is, h2]
    simpa [idsOf] using hids
  · rw [ds_is]
    have r1 : resourceElems (ds d es) "link:roleRef" = [] := by cases d <;> rfl
    have r2 : resourceElems (ds d es) "link:arcroleRef" = [] := by cases d <;> rfl
    have r3 : resourceElems (ds d es) "ix:relationship" = [] := by cases d <;> rfl
    refine ⟨?_, ?_, ?_, ?_, ?_, ?_⟩
    · rw [h2]; simp
    · rw [h2]; simp
    · rw [h2]; simp
    · rw [r1]; simp
    · rw [r2]; simp
    · rw [r3]; simp
  · intro fs _
    rw [plain_is, store_is]
    exact checkLinkbases CalcExample.rank hplain (by rw [show (docs d es).map (·.doc.root) = (plain d).map (·.root) from rfl, List.all_map]; exact hlinks)

theorem right_valid : ValidInlineFiling sampleDates asciiDigit sampleFloat (fun _ => true) (exactOf asciiDigit) (docs false right) :=
  filing_valid rfl rfl rfl rfl (by decide +kernel) (by decide +kernel) (by decide +kernel) (by decide +kernel) (by decide +kernel) (plainLinks_of (by decide +kernel))
    (checkRoles (by decide +kernel))
theorem zero_valid : ValidInlineFiling sampleDates asciiDigit sampleFloat (fun _ => true) (exactOf asciiDigit) (docs false zero) :=
  filing_valid rfl rfl rfl rfl (by decide +kernel) (by decide +kernel) (by decide +kernel) (by decide +kernel) (by decide +kernel) (plainLinks_of (by decide +kernel))
    (checkRoles (by decide +kernel))
theorem negative_valid : ValidInlineFiling sampleDates asciiDigit sampleFloat (fun _ => true) (exactOf asciiDigit) (docs false negative) :=
  filing_valid rfl rfl rfl rfl (by decide +kernel) (by decide +kernel) (by decide +kernel) (by decide +kernel) (by decide +kernel) (plainLinks_of (by decide +kernel))
    (checkRoles (by decide +kernel))
theorem dims_valid : ValidInlineFiling sampleDates asciiDigit sampleFloat (fun _ => true) (exactOf asciiDigit) (docs true right) :=
  filing_valid rfl rfl rfl rfl (by decide +kernel) (by decide +kernel) (by decide +kernel)
    (by decide +kernel) (by decide +kernel) (plainLinks_of (by decide +kernel)) (checkRoles (by decide +kernel))

def opened (d : Bool) (es : List InlineElem) : Option OpenedInline :=
  (openXhtml sampleDates asciiDigit sampleFloat (fun _ => true) (exactOf asciiDigit) str .insertion 2 20 (docs d es)).bind (fun r => match r with | .ok s => some s | .error _ => none)

theorem openXhtml_opened {o : OpenedInline} (h : opened d es = some o) : openXhtml sampleDates asciiDigit sampleFloat (fun _ => true) (exactOf asciiDigit) str .insertion 2 20 (docs d es) = some (.ok o) := by
  unfold opened at h
  cases ho : openXhtml sampleDates asciiDigit sampleFloat (fun _ => true) (exactOf asciiDigit) str .insertion 2 20 (docs d es) with
  | none => rw [ho] at h; cases h
  | some r =>
    rw [ho] at h
    cases r with
    | ok t => cases h; rfl
    | error e => cases h

def checked (o : OpenedInline) : List (Option (Except PyErr Bool)) := (o.networks.networks.store.getByType .calculation).map (o.isAggregationConsistent (exactOf asciiDigit) 5 o.allFacts)
def hasNet (o : OpenedInline) : Bool := (o.networks.networks.store.getByType .calculation).any (Network.logicalOf "r" .calculation)

example : (opened false right).map (fun o => (hasNet o, o.allFacts.all Fact.isCore)) = some (true, true) := by decide +kernel
example : (opened false right).map checked = some [some (.ok true)] := by decide +kernel
example : (opened false negative).map checked = some [some (.ok true)] := by decide +kernel
example : (opened false zero).map checked = some [some (.error .valueError)] := by decide +kernel
example : (opened true right).map checked = some [some (.error .valueError)] := by decide +kernel

/-! The conditions of C128 are met. -/

theorem digits_read : ∀ c, IsAsciiDigit c → asciiDigit c = some (c.toNat - 48) := by
  intro c hc
  unfold asciiDigit
  rw [if_pos ⟨UInt32.le_iff_toNat_le.2 hc.1, UInt32.le_iff_toNat_le.2 hc.2⟩]

theorem trimmed {s : List Char} (h : ∀ c ∈ s, pySpace c = false) : Trimmed s s :=
  ⟨[], [], by simp, by simp, by simp, fun c hc => h c (List.mem_of_mem_head? hc), fun c hc => h c (List.mem_of_getLast? hc)⟩

theorem zero_text : IntText asciiDigit "0".toList 0 := ⟨[], [], ['0'], [], [0], rfl, by simp, by simp, .one (by decide), by decide, .inl ⟨rfl, rfl⟩⟩

/-- Thousands, and a number with a sign. -/
example : StatesAmount asciiDigit (amount 1 "f1" "p:T" none (some "3") "1.5").num 1500 :=
  ⟨.inl rfl, by decide +kernel, "ixt:num-dot-decimal", '.', [',', ' '], "1.5", "1.5".toList, 3, by simp [decimalFormats], rfl, rfl, trimmed (by decide), ⟨['1'], ['.', '5'], rfl, by decide, .inr ⟨['5'], rfl, by decide, by decide⟩⟩,
    .inr ⟨"3", rfl, [], [], ['3'], [], [3], rfl, by simp, by simp, .one (by decide), by decide, .inl ⟨rfl, rfl⟩⟩, .inl ⟨rfl, by decide +kernel⟩⟩
example : StatesAmount asciiDigit (amount 1 "f1" "p:T" (some "-") none "20").num (-20) :=
  ⟨.inl rfl, by decide +kernel, "ixt:num-dot-decimal", '.', [',', ' '], "20", "20".toList, 0, by simp [decimalFormats], rfl, rfl, trimmed (by decide), ⟨['2', '0'], [], rfl, by decide, .inl rfl⟩,
    .inl ⟨rfl, rfl⟩, .inr ⟨rfl, by decide +kernel⟩⟩
theorem states_zero : StatesAmount asciiDigit (amount 1 "f1" "p:T" none none "0").num 0 :=
  ⟨.inl rfl, by decide +kernel, "ixt:num-dot-decimal", '.', [',', ' '], "0", "0".toList, 0, by simp [decimalFormats], rfl, rfl, trimmed (by decide), ⟨['0'], [], rfl, by decide, .inl rfl⟩,
    .inl ⟨rfl, rfl⟩, .inl ⟨rfl, by decide +kernel⟩⟩

theorem one (d : Bool) (es : List InlineElem) : linksOfRole (((docs d es).map (·.doc)).map (·.root)) "calculationLink" "r" = [ArcsExample.link ArcsExample.total] := by rw [plain_is]; cases d <;> rfl
theorem weights_agree : AgreeOn (ArcsExample.link ArcsExample.total) "weight" := agreeOn_of (by decide +kernel)
theorem named (d : Bool) (es : List InlineElem) : NamedApart (resourceElems (inlineDocs (docs d es)) "xbrli:context") := by
  rw [ds_is, contexts_are]
  cases d <;> exact fun m hm => by revert m; decide +kernel

theorem met (fs : List Fact) : Met store fs (ArcsExample.link ArcsExample.total) "t" (nm "T") := by
  refine .top ⟨[loc "t" "p_T"], loc "t" "p_T", "a.xsd#p_T", "p_T", ⟨.concept, nm "T", some "p_T", [], 0⟩,
    ⟨(below_iff ..).2 ⟨_, by simp [ArcsExample.link, XNode.children], .self⟩, by simp [loc, XNode.tag], rfl⟩, rfl, rfl, ⟨by decide, Or.inr ⟨"a.xsd", rfl⟩⟩, by decide +kernel, rfl⟩ ?_
  rintro l ⟨own, x, _, hx, _, hto, _⟩
  have : (linkParts (ArcsExample.link ArcsExample.total) "arc").all (fun x => decide (x.xlinkAttr "to" ≠ some "t")) = true := by decide +kernel
  exact absurd hto (of_decide_eq_true (List.all_eq_true.1 this x (part_linkParts hx)))

theorem summand : (ArcsExample.arc "t" "x" "1", loc "x" "p_X") ∈ summands (ArcsExample.link ArcsExample.total) "t" ∧ LocatorFor store (loc "x" "p_X") (nm "X") :=
  ⟨by rw [show summands (ArcsExample.link ArcsExample.total) "t" = [(ArcsExample.arc "t" "x" "1", loc "x" "p_X"), (ArcsExample.arc "t" "y" "-1", loc "y" "p_Y")] from rfl]; simp,
    locatorFor_iff.2 (by decide +kernel)⟩

theorem network {o : OpenedInline} (h : hasNet o = true) : ∃ net ∈ o.networks.networks.store.getByType .calculation, net.logicalOf "r" .calculation = true := by
  obtain ⟨net, hn, hl⟩ := List.any_eq_true.1 h
  exact ⟨net, hn, hl⟩

theorem concept_of {f : Fact} {q : QName} (h : f.getConcept.map (·.name) = .ok q) (h' : f.context.hasCharacteristic .concept = true) : ∃ k, f.HasConcept k ∧ k.name = q := by
  cases hc : f.getConcept with
  | error e => rw [hc] at h; cases h
  | ok k => rw [hc] at h; exact ⟨k, ⟨hc, h'⟩, Except.ok.inj h⟩

/-- The total is right, but the check of a filing with a dimension does not say so. -/
example : ∃ o net, opened true right = some o ∧ net.logicalOf "r" .calculation = true ∧ net ∈ o.networks.networks.store.getByType .calculation ∧
    ∃ depth, ∀ j, ∃ r, o.isAggregationConsistent (exactOf asciiDigit) (depth + j) o.allFacts net = some r ∧ r ≠ .ok true := by
  have h : (opened true right).map (fun o => hasNet o && o.allFacts.any (fun f => decide (f.getConcept.map (·.name) = .ok (nm "T")) && f.context.hasCharacteristic .concept && !f.isCore)) = some true := by
    decide +kernel
  obtain ⟨o, ho, h1⟩ := Option.map_eq_some_iff.1 h
  rw [Bool.and_eq_true] at h1
  obtain ⟨net, hn, hl⟩ := network h1.1
  obtain ⟨f, hf, h2⟩ := List.any_eq_true.1 h1.2
  simp only [Bool.and_eq_true, decide_eq_true_eq, Bool.not_eq_true'] at h2
  obtain ⟨k, hk, hq⟩ := concept_of h2.1.1 h2.1.2
  refine ⟨o, net, ho, hl, hn, C128_dimension_false dims_valid (by rw [ds_is]; decide +kernel) (openXhtml_opened ho) (named _ _) (one _ _) weights_agree hn hl (l := "t") (q := nm "T") (q' := nm "X")
    ?_ summand.1 ?_ (by decide) hf hk hq h2.2⟩
  · rw [plain_is, store_is]; exact met _
  · rw [plain_is, store_is]; exact summand.2

/-- Nor does the check of a filing with a total of zero. -/
example : ∃ o net, opened false zero = some o ∧ net.logicalOf "r" .calculation = true ∧ net ∈ o.networks.networks.store.getByType .calculation ∧
    ∃ depth, ∀ j, ∃ r, o.isAggregationConsistent (exactOf asciiDigit) (depth + j) o.allFacts net = some r ∧ r ≠ .ok true := by
  have h : (opened false zero).map (fun o => hasNet o && (o.allFacts[0]?).any (fun f => decide (f.getConcept.map (·.name) = .ok (nm "T")) && f.context.hasCharacteristic .concept)) = some true := by
    decide +kernel
  obtain ⟨o, ho, h1⟩ := Option.map_eq_some_iff.1 h
  rw [Bool.and_eq_true] at h1
  obtain ⟨net, hn, hl⟩ := network h1.1
  obtain ⟨f, hf, h2⟩ := (Option.any_eq_true _ _).1 h1.2
  simp only [Bool.and_eq_true, decide_eq_true_eq] at h2
  obtain ⟨k, hk, hq⟩ := concept_of h2.1 h2.2
  refine ⟨o, net, ho, hl, hn, C128_zero_false zero_valid (by rw [ds_is]; decide +kernel) (openXhtml_opened ho) (named _ _) (one _ _) weights_agree hn hl asciiFloatDigits.toDigitTable zero_text
    (exact_reads asciiFloatDigits digits_read) (l := "t") (q := nm "T") (q' := nm "X") ?_ summand.1 ?_ (i := 0) (e := amount 1 "f1" "p:T" none none "0") (by rfl) hf (by decide +kernel) states_zero hk hq⟩
  · rw [plain_is, store_is]; exact met _
  · rw [plain_is, store_is]; exact summand.2

end InlineChecksExample
end Brel
