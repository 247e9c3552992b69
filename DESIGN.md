# Formal model of BrelLibrary/brel

Everything here is about a hand-written Lean 4 model of the Python source in `/repo`.
The code was read as text and never run.

## Layout

| Path | Content |
| --- | --- |
| `lean/Verif/Py.lean` | Python run-time fragments: exceptions as values, insertion-ordered dicts, stable sort, string helpers on character lists |
| `lean/Verif/Model/*.lean` | the model, function by function, each definition citing file and lines |
| `lean/Verif/Spec/*.lean` | small independent specifications used in theorem statements |
| `lean/Verif/Lemmas/*.lean` | helper lemmas |
| `lean/Verif/Props/*.lean` | the property theorems, each followed by an `example` showing its hypotheses are met by a concrete, non-trivial case |
| `MANIFEST.json` | property → theorem names and status |
| `seeded/LOG.jsonl` | record of wrong programs tried against the theorems |

## Modelling conventions

* A Python function becomes a total Lean function. A raised exception becomes a value (`Except PyErr α`), an inserted error becomes an element of a returned error list.
* Mutation is modelled by returning the new state. Where object identity or aliasing matters (contexts shared by facts, network nodes) there is an explicit heap.
* `dict` is an insertion-ordered association list; assigning to an existing key keeps its position, as in CPython.
* `list.sort(key=…)` is a structural stable insertion sort.
* `while` loops and recursion without a structural measure use fuel or a well-founded measure; non-termination is stated as "no fuel suffices".
* Strings are `String` where only equality matters and `List Char` where their characters matter.
* Floating point is a parameter (`FloatOps`): theorems hold for every interpretation of the operations.
* When the code violates a property, the negation is proved with a concrete witness and the part that holds is proved under the suffix `_partial`.

## Plan per property

| Property | What is modelled and how it is proved |
| --- | --- |
| C01 A context keeps the first characteristic of every aspect | Model `Context` as id + aspect list + ordered dict; state over `foldl add` of an arbitrary list; prove lookup = first matching element of the history. |
| C02 A context lists its aspects once each, in name order | Same model; invariant by induction over the history: sorted, duplicate-free, same members as the history. |
| C03 Facts sharing a contextRef do not influence each other | Heap model: contexts live at addresses, the repository stores addresses, `deepcopy` allocates a fresh address. Prove non-interference for every operation list. |
| C04 get_value() returns the type announced by the concept | `get_value` mirrored branch by branch; Python `int`/`bool` text syntax modelled on character lists, `float` as a parameter; data-type lists copied from concept.py. |
| C05 Core facts are exactly the facts without user-defined dimensions | `is_core` over modelled aspects; filter characterisation. |
| C06 The fact store returns every fact that was stored | Two-store model of the repository. The property is false for facts without id: prove the negation and a `_partial` for facts with ids. |
| C07 get_all_reported_concepts() is the duplicate-free list of concepts with facts | Fold with membership test; prove equals first-occurrence deduplication. |
| C08 get_facts_by_concept_name() returns exactly the facts of the concept | Search + filter composition; prove membership iff and order. |
| C09 get_component() finds the component with the given URI | `next`-search with exception; iff statements. |
| C10 Preferred languages respect the configured priority | Fold that appends unseen languages source by source; prove no duplicates, membership iff, order = order of first occurrence in the concatenation of the enabled sources. |
| C11 Output parameters are resolved call > filing > library > False | Three dict lookups; statement as a decision table. |
| C12 allow_system_language and allow_report_language control their own source | Model `__infer_output_params` as written (arguments swapped); prove the negation and what does hold. |
| C13 A single-language DataFrame has one row per element in one language | Model the loop as written; prove the negation and a `_partial` for the single-language case. |
| C14 Translations are taken from the earliest preferred language that has one | Ordered search over languages with a table; prove first-match characterisation. |
| C15 The main label follows the documented language priority | If-chain over labels; prove the specification by a priority list. |
| C16 is_balance_consistent() decides the XBRL balance rule | Trees as an inductive type; recursion mirrored; prove iff with a specification quantifying over all parent/child pairs. |
| C17 is_aggregation_consistent() checks every reported sum in the network | Same trees plus facts and abstract float arithmetic; the property is false for factless inner nodes: negation + `_partial`. |
| C18 Children of a network node are always in order | Append-then-stable-sort; prove permutation, sortedness and stability for every insertion history. |
| C19 get_all_nodes() returns exactly the reachable nodes | Heap of nodes; DFS with visited set; prove membership = reachability for ranked (acyclic) heaps. |
| C20 A parsed link has exactly the arcs and roots of the XML link | Model the arc loop over labels and endpoints; prove edge and root characterisation. |
| C21 Combining networks loses no node | Heap model of `combine_networks`; prove coverage. |
| C22 Report element lookup refines a map | Two-map model; refinement to Key → Option; negation for stale ids. |
| C23 Prefixes and namespace URIs stay mutually consistent | Two-dict model; invariant by induction over registrations. |
| C24 URI rewriting uses a matching rule and changes only the prefix | First-match over insertion order; prove what holds and the negation of longest-match. |
| C25 Cached files of different URIs do not collide | Model the naming of cached files on character lists. Positive: injective on one folder and on plain paths of one server; negations, general in the folder and file name, for folders, schemes and punctuation, with the effect on the loaded documents. |
| C26 Loading follows references transitively and stops | Recursion with a bound on the stack, as in Python. Induction over the stack with the number of documents not yet loaded as measure: the result is the reachable set, each document read once. Negation: two files that refer to each other with .. never end, for every stack size. |
| C27 QName text forms round-trip | Printing and parsing on character lists; round trip. |
| C28 Name search is sound and complete | Filter model; iff. |
| C29 Inline numeric values are scaled exactly | The patterns are modelled by a generic matcher that is proved correct against a declarative reading; functions on character lists; value in the rationals; value(output) = value(input)·10^scale. Negations: one-digit hundredths, the earlier names for zero. |
| C30 Inline numeric values are stored as canonical numerals | Canonical form predicate; negation for zero, `_partial` for nonzero values. |
| C31 The sign attribute negates the value | Branch-by-branch model of the sign/scale/format/nil handling. |
| C32 Inline dates are converted to the ISO date they denote | Model of part assignment and month tables; table-wide `decide` lifted by lemmas; negation for the wrong month tables. The Japanese calendar by running the pattern on every text of the form; the Indian calendar never gives a value. |
| C33 Continuation chains terminate | Fuel model of the while loop; prove divergence for cycles (no fuel suffices) and correctness for ranked indexes. |
| C34 Relevant content keeps all text except excluded text | Element trees as an inductive type; prove text equality by structural induction. |
| C35 Inline footnote networks carry their link role | Grouping fold; negation for link role, `_partial` for grouping. |
| C36 Every well-formed inline relationship is accepted | Attribute model with unbound-variable error value; negation + exact success condition. |
| C37 Normalised namespace maps are one-to-one | Model of the prefix assignment; negation by witness + `_partial` for disjoint prefixes. |
| C38 An entity characteristic has the identifier and scheme of its element | Cache model; negation by witness + `_partial` for one scheme per id. |
| C39 A context is produced exactly when period and entity are valid | Branch model of the context parser over parsed children. |
| C40 Units carry their numerators and denominators | Branch model over a unit element. |
| C41 No fact element disappears silently | Loop model for both fact parsers; prove each element is stored or reported. |
| C42 Components collect the networks of their role | Model the parser of roles on the repository of networks and on XML elements; exact component and reports for every repository; compose with C84 for the networks of a filing; counterexamples for prefixes. |
| C43 Every schema element is classified into at most one report element kind | For each kind the exact condition on the attributes; theorem that it agrees with the specifications on customary taxonomies; counterexamples for other ways of writing. |
| C44 Only well-formed concepts are created | The checks as a list in order; a concept exactly when all pass, else the report of the first that fails. |
| C45 Parent-child order is inherited from the nearest ancestor | Model tables, breakdowns and nodes as dictionaries that refer to each other by label; inductive relation for the inherited order; invariant through the recursive propagation; termination by a rank, negation for cycles. |
| C46 Error codes identify errors and reports can be made | The registry and all 129 reporting calls are generated as tables by tools/gen_error_table.py; str.format is modelled and proved to read templates as pieces; whole-table decisions are lifted to all argument values; histories of the repository; filters. Eight calls cannot make their report: negation. |
| C47 Durations never end before they start | Constructor with exception; invariant. |
| C48 Duplicate element ids are reported | Loops with a set of taken ids; prove reported positions = repeated ids. |
| C49 The parser kind follows the file set | Suffix tests on character lists; decision table; then through the whole creation of a parser, where the catalog is removed from the list. |
| C50 The printed network tree shows every node once under its parent | Specify depth-first order by the order of the lists of positions on the way to a node, and the drawing by the positions among the siblings; induction over the recursion depth. The nearest less indented line above is the parent. Negation: cyclic networks. |
| C51 Facts of one context agree on every dimension | Same heap model as C03 with object identities for members and dimensions; negation for explicit dimensions of copied contexts, `_partial` for the value-compared kinds. |
| C52 Tables of a filing can be stored and listed | Default dictionary with a raising factory; negation (every first insertion raises) and `_partial` for roles already present. |
| C53 The network store lists exactly the stored networks | History fold over a dictionary of lists. |
| C54 The characteristic store is a map keyed by id and kind | History fold; refinement to a map keyed by id and class. |
| C57 Looking up one element by name returns the only match, and nothing for a missing name | Search model of C28 plus `exactly_one`; exact success condition, negation of the documented None. |
| C56 The system language selects labels and translations of that language | Model of languages_match on character lists; universal theorem that names with an underscore never match dashed tags, negation by witness, `_partial` for plain codes. |
| C58 A fact's table row keeps every aspect of the fact | Row as insertion-ordered dictionary keyed by labels; negation by witness, `_partial` for distinct captions, plain rows proved by the unique aspect names of C02. |
| C59 Setting one output parameter keeps the others | State machine over setter calls; negation by witness, exact final state. |
| C55 Facts outside a calculation network do not disturb its aggregation check | Compare the check with and without the additional fact; negation by witness for a broken-down fact, theorem for foreign concepts, `_partial` with the exact condition. |
| C60 A child shows the order, weight and preferred label of the arc that makes it a child | On the link model of C20: negation by a shared locator, `_partial`: a node shows the first arc that leads to it. |
| C61 Reading a link twice gives the same order of children | Set iteration orders are a parameter of the link model; negation by two orders, `_partial` for children with different orders. |
| C62 Prohibited arcs make no relation | Negation by witness, and a universal theorem that the attribute has no influence on the result. |
| C63 A locator stands for the element of the document it names | Locator resolution over the element and fact histories of C06 and C22; negation by two documents with the same id, exact result, `_partial` for unique ids. |
| C64 A combined network does not depend on the order of the links | On the model of C21; negation by two orders of two networks, `_partial`: same objects and relations. |
| C65 The labels of a label link reach exactly the elements they are linked to | On the link model; exact characterisation of the attached labels in terms of arcs and link ends. |
| C66 A concept that occurs twice under a parent is shown twice | On the link model; negation by a shared locator, `_partial` for separate locators. |
| C67 Every object of a link appears in one of its networks | On the link model; negations by a cycle and by an unresolved parent, `_partial` for ranked arcs with resolved origins. |
| C68 Labels, footnotes and references keep their content | Model of the resource parser; negations by mixed content and repeated parts, `_partial` without child elements or with distinct parts. |
| C69 Links show only objects of their kind, definition links twice | On the link model; exact kinds of admitted objects, kinds of networks per tag; negation: a wrong object raises an exception instead of being reported. |
| C70 Inline numeric facts keep their accuracy and id | On the model of the element parser, for every element and every list of earlier ids. |
| C71 A nested inline fact has the value of the fact inside | Negation for every nested element: the value is the XML source of the inner element. |
| C72 An inline date that does not exist is reported | Proved with C32 (the errors of the result are empty exactly when the date exists), negations for recurring dates, months beyond 12 and days outside a Japanese era. |
| C73 Non-numeric inline facts keep their text unless a format says otherwise | Dispatch function modelled; laws for all texts and all format names outside the tables. |
| C74 Escaped inline facts hold the XML source of their content | Serialisation modelled as a function on element trees; a source is a relation between texts and element trees (`Spec/XmlSource.lean`); the value is a source exactly when no child contains special characters, because a source determines the texts. |
| C75 Every continuation belongs to exactly one fact | Invariant of the loop over the chains; permutation statement. |
| C76 Inline relationships link their facts to their footnotes and facts | Creation loop reduced to a list of jobs, invariant of the connecting loop; structure theorem for every successful run, success for footnotes, failure for facts as ends (truth value of the fact object is taken). |
| C77 Broken inline relationships are reported and do not stop loading | Exact conditions of the four errors; negation: an unknown id always raises an exception. |
| C78 Inline footnotes keep their content, language and role | Branch model on top of the content model; negation: content includes the tags of the footnote and the text after it. |
| C79 Footnotes of a fact are ordered by their relationships | Negation by three relationships that share a footnote. |
| C80 A context has the dimensions its segment states | Cache semantics over all histories (first entry per key); lookup theorem for filings whose texts have one meaning each, negations for rebound prefixes and repeated dimensions. |
| C81 The period of a context is the one its element states | Invariant of the period cache (key determines the period) over all histories. |
| C82 The choice of prefix does not decide whether a fact is read | Compare the lookup by qualified name with the namespace and local name; general lemma when the prefix agrees, counterexample otherwise. |
| C83 Every child of an inline header is used or reported | Folds over the children; prove the lists equal to the filtered children and the numbers of reports equal to the numbers of other children; counterexamples for other prefixes and comments. |
| C84 A role has at most one network of a class, uniting its links | Model both passes on top of the link parser (C20) and the combination of networks (C21, C64). Invariant: links allocate disjoint sets of nodes, so combining one group of networks leaves the nodes of all others untouched; then induction over groups and roles. |
| C85 The report elements of a filing are those its schemas declare | Rewrite the two loops as one fold over the list of declarations; invariant relating the repository to the first valid declaration of each name. |
| C86 Typed dimensions carry the type of the element they refer to | Characterise the reference by a decomposition at the only #; theorem when the prefix xbrldt is bound as usual; counterexamples for another prefix and for relative references. |
| C87 References of a document are those written in it | Model the regular expression search. Soundness: every found reference is written in the text. Completeness by a composition law: the references of a text around a written reference are those before, itself, those after. Negations: several pairs, spaces, comments, entities. |
| C88 A taxonomy package's catalog redirects exactly what it says | Characterise the stable sort by its head; fold over the rules with the dictionary as invariant. |
| C89 Opening a path takes all files of the filing | Mutual induction over folder trees against an inductive membership relation; decision table for single paths; negations for archives, .htm files and names without a dot. |
| C90 A version group is represented by its latest version and its best prefix | Loop invariant: every entry of the map comes from its group, has the largest sum of numbers and the preferred prefix or a recorded rename; regular expressions of the configuration against an inductive relation; negation: a date with a larger sum of numbers is not later. |
| C91 A table link is read completely | Invariant relating the state of the two loops to the lists of resources and arcs read so far: dictionaries are determined by the last resource per label, targets by the arcs in document order. Negations: arcs without order, comments. |
| C92 Nodes of tables say what their elements say | Characterise the rule parsers by an inductive relation between elements and rules; induction over the children; the dictionary of rule sets by the last set per tag. Negation: abstract="1". |
| C93 Nothing a table linkbase says is lost | Negations for all inputs: no standard linkbase is found; tables never get filters; relationship nodes for concepts, with an axis or with members as sources are never read. |
| C94 A printed line identifies what its node points to | Injectivity of the texts of report elements, lengths of the weight column; negations: facts print nothing, long weights shift the columns. |
| C95 The printed table of facts is complete and deterministic | Sorted, duplicate-free columns for every iteration order of the set, rows by stability of the sort; the condition under which printing fails. |
| C96 Valid facts are never refused | Success lemmas for every parser under the invariant of the caches, induction over elements and documents; the restrictions on ambiguous texts are necessary by C38_entity_false, C80_prefix_false and C41_unit_false. |
| C97 Reading a written instance returns what was written | A separate writer of instance documents in Spec/Instance.lean; the written elements are shown valid and unambiguous, then C96 applies; a further theorem spells out what the lookups of a fact answer. |
| C98 Valid inline filings are never refused | A specification of valid inline filings in Spec/InlineInstance.lean; every pass is shown to succeed and to report at most used ids, which are distinct; chains of continuations never share an id because every id is referred to once. |
| C99 The reports on continuations are exact | Each report is characterised by a condition on the chains, and the chains by following continuedAt; the list of reports is empty exactly for valid continuations, by counting references (a permutation of the elements of all chains). |
| C100 Elements have exactly the labels their label links state | Refine the documents to the links of the earlier model: what the reader extracts from each element is characterised by a specification over the document tree (lineage, nearest xml:lang, fragment of the reference), then C84 and C65 apply. Negations: optional roles, other prefixes. |
| C101 Networks show exactly the relations their links state | The same refinement with C84, C20 and C21; reachability from the roots by the rank of labels. |
| C102 Valid link bases are read, and the reports on links are exact | A specification of valid links over the document tree (Spec/LinkValid.lean). Success of C20, C65 and C21 is lifted to all links: nodes get a rank from the rank of the labels, so that traversals end and networks stay disjoint. Reports are compared with an inductive specification. Negation: a comment in a reference. |
| C103 Opening from EDGAR opens the latest filing asked for | Model the columns of the list, the choice by key and the address; the answer of the server and the age of the cache are parameters. The key orders dates (year, month, day in digits); the maximum is the first one. Negations: a filing without report date, metadata between one and two days old. |
| C104 Tables of elements and components show every property under one title | The shipped translation file is a table in the model (all names, five languages); that every name has all five texts and that titles differ is checked on the whole table, the rest by induction over the preferred languages and the lookups of C14. Negations: the misspelt column without languages, labels of other roles. |
| C105 A valid filing opens and shows what its documents say | Compose the models of the steps (Model/Open.lean) and the theorems about them: the store of report elements of C85 is the history of the taxonomy that C28 and C96 speak about, and the facts of C96 those that C102 refers to. A specification of valid filings in Spec/Open.lean; the example is a filing with four documents. Negation: a label without role. |
| C106 The languages of a filing are those its documents state | Model the query for xml:lang over document trees and the sets it is collected in; membership by induction over the tree and the documents. Labels by the language in force (nearest ancestor). Negation: a language stated by the root only. |
| C107 Physical networks separate the arc roles | Refinement as in C101 for the links of physical networks: edges of such links keep the arc role (C20), so reachable nodes have that of the root; the union of logical networks leaves nodes of physical networks as they are (C84, strengthened). |
| C108 The lists of concepts, abstracts, line items, hypercubes, dimensions and members | The lists are filters of the list of C22; counting shows that they are a partition. |
| C109 Role references of inline documents | Model parse_role_reference attribute by attribute and state the reports as a list of the faults a small specification names; lift to sequences by induction. Negations: valid references are reported, since the code reads xlink:linktype instead of xlink:type and roleURI also for arc role references. |
| C110 A valid inline filing is opened and shows what its documents say | Compose the models of the steps for inline filings (Model/OpenInline.lean) and the theorems about them: C85, C98, C33, C34, C76, C109, C100 to C102, C42; the ids of relationships are the words of their attributes. A specification of valid inline filings in Spec/OpenInline.lean; the example is a filing with four documents, a continued footnote and a relationship. |
| C111 Filing.open: from a path to the filing | Model Filing.open as the composition of the models of path loaders, loading (C26, C88, C89, C49) and the two parsers (C105, C110). The specification says which files are entry points and which documents are reached; the theorem holds for every order in which they may be loaded. The examples are an XML and an inline filing on a server. |
| C112 Roles and links are checked to be URIs | Model is_valid_uri together with the functions of urllib.parse it consists of. Prove the round trip: writing well-formed parts and splitting the text gives the parts; from it the exact decision. Negations: no fragment passes, and every text without delimiters passes, even with spaces. |
| C113 What a node points to, and the dictionaries of nodes and networks | Model points_to and the getters of the six classes, and the dictionaries as trees. Prove by induction over ways down the network that going the same way in the dictionary finds the entries of the node; that the dictionary is defined exactly for paths within the recursion limit. Negation: the dictionary does not depend on the report elements at all. |
| C114 Equal objects mean the same | Model the texts of dates and periods digit by digit and prove that they determine the period; the text of an entity determines it if the scheme has no closing brace. Negations: entities with braces, units and contexts (only ids are compared), concepts with different prefixes. |
| C115 Children show the weight, order and preferred label their arcs state | Follow the data of a node through the reading of a link, the combination of links of a role and the store: a child of a node for an object has the data d in the combined network exactly when it has them in one of the links (a new clause of what it means that a network unites others). With C60 this gives an equivalence between children shown and arcs of the documents if arcs to the same locator agree; negation: a concept added to one total and subtracted from another in one link. |
| C116 The balance check of an opened filing judges the documents | Turn the nodes of a network into the trees of C16 (the recursion ends by C102_no_cycles and because every node of a calculation network stands for a concept), show that trees and nodes correspond, and express objects, balances and weights by the documents with C101, C85 and C115. Negation: an arc to a locator that another arc leads to first. |
| C117 Cached files are the downloaded and copied ones, byte for byte | Model the file repository and the file service on byte arrays, with the status of the server. UTF-8 is that of Lean's library: a text is the encoding of a list of characters. Invariant over histories: each cached file is one that was offered. Negations for other encodings. |
| C118 A document is read whole or not at all, also after interruptions and with several processes | Model the steps of fetching (look, open and empty, write a piece, close, read, be ended) for any number of processes on one file. Invariant: each byte is in its place or still to be written by somebody. Negations, general in the content: a process that is ended leaves a part which all later ones read; two processes; three processes. |
| C119 A filing that was opened once can be opened again without the web | Simulation: loading with any directory that has all files of the first loading gives the same documents and fetches nothing, by induction over the stack of loading. No assumption on the names of files is needed, because a document that cannot be read under its own name makes the first opening fail. |
| C120 The aggregation check of an opened filing decides whether the totals of the calculation link hold | Compose C17 (exact decision on trees), C20/C84 (the network of a link, unchanged when it is the only one of its role), C102/C115 (readings of locators, arcs and weights): the children of a node are a permutation of the summands the link states, and a sum of rational numbers does not depend on order. Both directions by induction over the path from the top. Numbers are rational: rounding of floats is not modelled here (C17 is generic in the arithmetic). |
| C121 The table of facts shows each fact of the filing | `factTableRow` models `convert_to_dict` with the real titles, labels, dates and translations. The specification `FactRowShows` says per aspect what title and cell must be, in terms of labels and translations only (`ShownIn`, `FixedText`, ISO dates read back as numbers). Titles are shown to be distinct by enumerating the shipped words, dimension titles contain a colon. Exact: a row exists iff every title and cell has a text in one of the languages. Then for whole filings through C115 (the facts of the filing are those the documents state). |
| C122 The table shows an inline fact like the same fact of an XML instance | The context of an inline fact is a deep copy made before labels are attached, so its members have no labels (`objectLabels`). The row is that of C121 with members without labels; it does not depend on the labels of members at all. |
| C123 A numeric fact is read as the nearest floating point number | `Model/Double.lean`: doubles are rationals, infinities and NaN; `rnd` rounds a rational by scaling to the last place (53 digits, 2^-1074 at least), round half to even, overflow. `pyFloat` parses as CPython does. The specification says `NearestDouble` (no double is closer, ties have an even last digit) and `FloatText` (a grammar, by existence of parts); both are shown equivalent to the code for every rational and every text. |
| C124 The aggregation check with floating point numbers decides the exact sums | C17 is generic in the arithmetic and is instantiated with doubles. Exactness: partial sums of small multiples of 2^k are doubles, so rounding is the identity (induction over children). Tolerance: each step adds at most half a last place (induction, bound linear in the number of children times the bound of the partial sums). Opened filings through C120. Negations by evaluation: 0.1 + 0.2 against 0.3, and 2^53 + 1. |
| C125 Changing a list that a query returned does not change the filing | `Model/Sharing.lean`: lists are cells of a heap; a call returns the cell of a list the filing keeps, or a new cell. Histories interleave calls with arbitrary changes of the lists got. Invariant: the i-th list got has the kept cell of its call, or a cell nobody else has. The statements speak about calls and changes only, not about cells. |
| C126 The order of the documents and the run of Python do not change what a filing shows | `Props/Rearranged.lean`: validity and everything that C105, C115, C116 and C120 say about an opened filing in terms of its documents is invariant under permutations of the documents, if URIs, names and ids are distinct; hence two openings, with different `SetOrder`, agree. |
| C127 Writing a whole filing and opening it gives it back | `Spec/WrittenFiling.lean` writes a filing as three documents, `Props/WrittenFiling.lean` computes what the specifications of C105, C97 and C115 say about these documents: declarations, fact elements, links with their parts, role declarations; `C127_roundtrip` then follows from `C105_opens`. |
| C128 The checks of calculation networks in inline filings | The proofs of C116 and C120 are stated for networks read from valid link bases (`balance_of_links`, `totals_of_links`) and used again for `openXhtml`. `Model/InlineChecks.lean` gives every fact its copy of the context, as the repository does. `no_match`: a fact with a dimension agrees with no fact but itself, as the copies have different members. Amounts: C29 and C31. |
| C129 Filters of table link bases | `Model/Filters.lean` models the parser of filters; the specification lists the entries of a filter by an inductive relation (`ConceptEntries`). `parse_dimension_element` returns nothing for every element, so the two parsers that call it do as well. Tables: the invariant `Unfiltered` holds through all resources, arcs and the orders of parents and children. The members of filters for dimensions are modelled but cannot be reached. |
| C130 Tables of report elements, components and labels of an opened filing | `Model/FilingTables.lean` builds the rows from the state that the readers of schemas, link bases and role declarations leave. The specification describes the row of a declaration by its attributes (`StatedElement`, `TypedAs`), its labels by the label links (`StatedLabels`) and the flags of a component by the links of its role (`LinksObjects`). The proofs compose C43, C85, C86 (schemas), C104 (rows) and C105/C110 (opened filings). |
| C131 Pretty printing components and lists | `Model/PrettyPrint.lean` has `pprint` with its case distinction, `pprint_component` and `get_networks`, on top of the printing of networks and facts (C50, C95). The specification gives the lines of a component from the depth-first places of its networks (`ComponentLines`, `NetworkLines`). For opened filings the ranks that reading link bases leaves (C102) bound every path by the number of nodes, and the printed places are related to the links by C105. |
| C132 Fact queries of an opened filing answer from its documents | `Model/FilingQueries.lean` hands the repositories of an opened filing to the queries of `Model/Filing.lean` and builds the table of core facts. The specification selects fact elements of the documents (`coreElements`, `elementsNamed`) and says that a list of facts is what they state (`StatedByAll`). The proofs compose C05, C07, C08 (queries), C96 and C105 (reading) and C121, C13 (tables). |
| C133 Fact queries of an opened inline filing answer from its documents | `Model/InlineQueries.lean` hands the repositories of an opened inline filing to the queries of `Model/Filing.lean` and builds the table of core facts. The specification selects inline elements (`inlineCore`, `inlineNamed`) and relates each to its fact (`InlineStates`, with continuations). The proofs filter the relation of C110 and compose it with C05, C07, C08, C121 and C13. As the concept is added after the characteristics of the context, that no dimension is called `concept` is needed. |
| C134 The accessors of a fact answer what its element says | `Model/FactParts.lean` has the accessors and the text of contexts. The specification (`HasParts`, `ElementSays`, `InlineSays`, `ContextSays`, `SaysAll`) names the elements of the documents that each answer comes from. The proof evaluates the first characteristic of each name (C01) in the two orders in which XML and inline facts are put together; the text uses that the aspects are sorted (C02), and that a sorted list is determined by its members. |
| C135 Tables of report elements and components made one language at a time | `Spec/LanguageTables.lean` describes the table as blocks, one for each language after the last one that is not shown (`AfterLast`, `LanguageBlocks`); a language is shown if it has titles and, for elements, if the label links of the documents give every declared element a label in it. The proof splits the list of languages at the last one that is not shown, uses C13 for the loop and C130 for the blocks. That the split is unique is proved beside the example. |
| C136 The table of core facts made one language at a time | The specification (`CoreLabelled`, `FactBlock`) names the languages and the blocks in terms of the documents. The proof uses the split of C135, C132 for the languages that are shown, and C132_core_table_false for missing labels; for missing titles, the column of the concept, which every fact has, cannot be titled. |

## Trusted base

* Lean 4.33.0's kernel.
* The axioms `propext`, `Classical.choice` and `Quot.sound` at most. No axioms are added; there is no `sorry`, `admit`, `native_decide` or `bv_decide`.
  Every theorem named in `MANIFEST.json` was checked with `#print axioms`; the list per theorem is in the section "Axioms".
* The reading of the Python source that the comments of the model record. Nothing connects the model to the running program except these citations: a mistake in reading is not caught by Lean.
* The statements in `Props/` and the specifications in `Spec/`.

Parameters of the model, over which the theorems quantify:

| Parameter | Stands for |
| --- | --- |
| `dateOf` | `dateutil.parser.parse(text).date()`, `none` for a `ValueError` |
| `FloatOps` and the reading of floats | Python's `float`; no law of arithmetic is used. C123 and C124 instantiate it with `dblOps` (IEEE binary64, round to nearest even, `float(text)` correctly rounded), which is trusted to be what CPython does |
| `dig` | which characters are decimal digits for `int` and `\d`, and their values |
| `SetOrder`, `iter` | the order in which Python iterates over a `set` |
| `data : ReportElement → Concept` | data type, balance and the other fields of a concept that a theorem does not look at |
| disk, web and archive contents (`Model/Loader.lean`) | the file system and `requests` |
| recursion limit (`fuel`) | CPython's recursion limit; a theorem about an endless computation says that no limit suffices |

Not modelled:

* lxml's reading of XML text: documents are trees of elements (`Model/Xml.lean`, `Model/InlineContent.lean`). Attribute names are the texts the code asks for; XPath queries are modelled by their meaning.
* pandas, pyspark and PrettyTable: a table is the list of rows that is handed over.
* `requests`, `zipfile` and the disk beyond a map from paths to contents (`Model/FileCache.lean`: to bytes, with UTF-8 as Lean decodes it, and writes of any split by several processes, each on an open file with its own position as POSIX has it); time.
* dateutil and `convertdate`.
* Python's memory, threads and signals.

The functions that no definition of the model cites are listed at the end.

## How the theorems were tested

Every area was tried against edited copies of the model (wrong boundaries, missed cases, swapped arguments, dropped updates); `seeded/LOG.jsonl` has one line per attempt.
Theorems that survived a wrong program were tightened, and the line says which.

## Where the code does not do what the property says

Each line is a theorem that refutes the property, or a part of it, for the model of the code. What does hold is proved under the suffix `_partial`.

| Theorem | What happens |
| --- | --- |
| `C06_every_stored_fact_listed_false` | The only stored fact is not listed. |
| `C11_explicit_false` | An explicit `False` in the call is respected, and one on the filing unless the call says otherwise. |
| `C12_own_source_false` | The call forbids the system language and allows the report languages, and gets the opposite. |
| `C13_first_usable_language_false` | In the other direction as well: a language that shows everything is lost when a later one fails. |
| `C13_one_row_per_element_false` | Whenever two different places of the language list can show all elements and nothing fails, every element gets a row for each of them. |
| `C17_aggregation_false` | Below a total that is not reported, a wrong sum goes unnoticed. |
| `C22_by_id_is_current_false` | For ids: an element found by id need not be in the repository any more. |
| `C24_longest_rule_false` | For the choice of rule: a shorter start string wins when it was inserted first. |
| `C25_folders_false` | Files of the same name in two folders share one cached file. |
| `C25_outdated_false` | A file that has been read once is never read again. Whatever the disk and the web have now, the document is the one of the cached text. |
| `C25_punctuation_false` | Addresses that differ in punctuation only, or in a leading `www.`, share one cached file. |
| `C25_same_name_false` | Of two local files with the same name in two folders, only the first is read, and both documents are the one of its text. |
| `C25_scheme_false` | An address and its secure form share one cached file. |
| `C26_cycle_false` | Two local files that refer to each other with `..` are loaded again and again under longer and longer paths, so loading never ends by itself. |
| `C27_clark_roundtrip_false` | For Clark notation: with two prefixes for one namespace the name changes, although the scope declares its prefix. |
| `C27_default_namespace_false` | For the default namespace: the unprefixed text and the Clark text of one name give two different names. |
| `C28_search_complete_false` | An element of a schema whose target namespace is the default namespace gets the prefix "None", which is never registered, so no prefixed text finds it. |
| `C29_earlier_zero_false` | The earlier names for zero are not supported, although the table of names maps them to the format for zero: every text is kept and reported. |
| `C29_unit_false` | For hundredths written with one digit: "5 dollars 5 cents" becomes 5.5. |
| `C30_zero_false` | For zero: the stored text is empty, and `Fact.get_value()` of an integer fact with it raises `ValueError`. |
| `C31_empty_sign_false` | An empty sign attribute is not reported. |
| `C31_nil_one_false` | A fact without text, nil by `xsi:nil="1"` as XML Schema allows, makes the parser fail. |
| `C31_zero_false` | A zero with a minus sign becomes the text "-", which denotes no number. |
| `C32_dutch_false` | The third of May in Dutch is read as the third of June, without an error; the third of December as the third day of the 13th month. |
| `C32_german_false` | The German names of March, May and December are not recognised. |
| `C32_indian_false` | For the national calendar of India: no text with this format gets a value. A date of the right form raises a `KeyError`; everything else is kept as it is and reported. |
| `C32_lithuanian_false` | The third of September in Lithuanian is read as the third of August, without an error. |
| `C32_roman_false` | With a Roman month the month is returned in place of the year. |
| `C32_slovenian_false` | Slovenian dates with a day raise an exception. |
| `C33_cyclic_false` | A continuation that continues at itself makes the parser run forever. |
| `C35_linkrole_false` | A network of a relationship in the link role `http://x/notes` has another link role. |
| `C36_document_false` | For whole documents: one relationship without a readable order, and none of the networks is built. |
| `C36_order_false` | Without an order, or with an unreadable one, an exception is raised whatever the other attributes are. |
| `C37_lost_false` | Of three name spaces under one prefix the second is lost, its alternative prefix is given to the third one. |
| `C38_entity_false` | An identifier used earlier with another scheme yields the earlier scheme. |
| `C39_comment_false` | A comment between the dimensions of a context raises an exception instead of being skipped. |
| `C39_iff_false` | An element whose period is `forever` yields a context, without a period. |
| `C39_kind_false` | A child of a segment that is neither an explicit nor a typed member is not reported; an exception is raised, as the arguments of the report do not fit its message. |
| `C39_reported_false` | An entity whose identifier is empty is not reported; the context simply has no entity. |
| `C39_unknown_typed_false` | A typed member of an unknown dimension raises an exception instead of being reported. |
| `C40_empty_false` | A numerator without a measure is not reported; an exception is raised. |
| `C40_measures_false` | Of several measures in a numerator only the first is kept, without a report. |
| `C40_same_false` | A quotient of two numerators is not reported; an exception is raised, as the message of the report is malformed. |
| `C40_whitespace_false` | White space around a measure becomes part of its name, and no namespace is found for its prefix. |
| `C41_context_false` | A fact element that refers to a context its document does not have is not reported; an exception is raised and the whole filing is not loaded, as the registry of errors describes the report of a unit under the code of this report. |
| `C41_duplicate_false` | For fact elements that share an id: only the last one is listed, and nothing is reported. |
| `C41_no_id_false` | For fact elements without an id: nothing is reported, and no listed fact has their value. |
| `C41_prefix_false` | For fact elements written with another prefix than `ix`: the element is not parsed, the fact parsed before it is stored once more, and nothing is reported. |
| `C41_root_false` | For documents whose root element does not bind the prefix `ix`: no fact is found, and nothing is reported. |
| `C41_unit_false` | For filings of several documents: a fact has the unit of the first document that has a unit of that id, not the unit of its own document. |
| `C41_unknown_unit_false` | A fact element that refers to a unit its document does not have is not reported; an exception is raised and the whole filing is not loaded, as the registry of errors has no entry for the code of the report. |
| `C42_prefix_false` | A role that declares its links with another prefix for the name space of linkbases is reported as not declaring them. |
| `C42_unbound_false` | A document that binds another prefix to the name space of linkbases has roles, but reading the components raises `SyntaxError`. |
| `C43_boolean_false` | An abstract item whose `abstract` is written `1` becomes a concept. |
| `C43_group_false` | A non-abstract element of another group whose name contains `item` becomes a concept. |
| `C43_head_false` | Abstract elements that belong to no substitution group become report elements. |
| `C44_boolean_false` | An element whose `nillable` is written `1`, which is a valid boolean, is no concept. |
| `C45_cycle_false` | For cyclic trees: if a tree of a table runs into a cycle, reading the link ends with a `RecursionError`, however many calls are allowed. |
| `C45_cycle_link_false` | Reading a link whose tree is cyclic ends with a `RecursionError`, whatever the number of calls allowed. |
| `C46_messages_false` | A period without a start date is reported by a message that says the end date is missing, and the other way round. |
| `C46_sites_false` | Not every report the code makes can be made, so that some faults of a filing raise an exception instead of being recorded. |
| `C48_false` | For facts that are not made: the id of a fact element of an unknown concept may be used again without a report. |
| `C50_cycle_false` | A network that contains a cycle cannot be printed, whatever the recursion limit; nothing but the first header line comes out. |
| `C51_same_context_equal_characteristics_false` | Two inline facts with the same contextRef have unequal characteristics for an explicit dimension, because copying the context copies the member and members are compared by identity. |
| `C52_tables_stored_false` | Storing any table in a fresh repository raises `TypeError`, so a filing with a table cannot be read. |
| `C55_breakdown_does_not_matter_false` | Reporting a child additionally for a member of a dimension, which the total does not have, makes the check of the undimensioned total raise an error, although the matching undimensioned facts add up. |
| `C56_system_language_selects_label_false` | An element with an English label is not shown in English on an English system. |
| `C57_missing_is_none_false` | The documentation promises no exception for a missing element, but a name that finds nothing always raises. |
| `C58_row_complete_false` | Two dimensions with the same label share one column, and the first one's value is lost. |
| `C59_other_parameters_kept_false` | Setting one parameter on the filing, or on the library, resets all the others of that level. |
| `C60_child_shows_its_arc_false` | In a calculation link `A = C`, `B = -C` with one locator for `C`, the child of `B` has weight 1. |
| `C61_children_order_determined_false` | Children with the same order come in the order of iteration over a set. |
| `C62_prohibited_arcs_excluded_false` | An arc with `use="prohibited"` that follows the arc it prohibits leaves the relation in place, and alone it makes one. |
| `C63_locator_respects_document_false` | If two documents have an element with the same id, a locator for the one can stand for the other. |
| `C64_link_order_irrelevant_false` | With `A > B` and `B > C` in two links, the combined network is `A > B > C` if the link of `A` comes last, and otherwise it has the two roots `B` and `A`, with `C` only below the first. |
| `C66_both_occurrences_shown_false` | With one locator for the concept the second arc counts as duplicate. |
| `C67_below_unresolved_false` | Also without cycle: an object below a locator that cannot be resolved appears in no network. |
| `C67_every_end_in_a_network_false` | The objects on a cycle appear in no network. |
| `C68_footnote_text_complete_false` | For footnotes with markup: only the text before the first child is kept. |
| `C68_reference_parts_complete_false` | For references: of two parts with the same name only the last is kept. |
| `C69_reported_false` | Reading a link never reports an object of another kind: it raises an exception. |
| `C71_differs_false` | A fact inside another fact with another format, scale or unit is not reported; an exception is raised, as the message of the report is malformed. |
| `C71_nested_false` | The value of a fact that contains another fact is the XML source of the inner element, whatever number the inner element contains. |
| `C72_era_false` | For dates of the Japanese calendar that lie outside the era: the first of January of the 99th year of Showa, an era that ended in its 64th year, is accepted. |
| `C72_month_false` | For a month beyond 12: instead of a report there is an exception. |
| `C72_recurring_false` | For dates without a year: the 31st of February is accepted. |
| `C74_escape_false` | An ampersand inside a child element is escaped twice, so that the value is not a source of the content. |
| `C76_fact_false` | Whenever a relationship leads to a fact whose value is not a truth value, no network is built. |
| `C77_unknown_false` | An id that is neither a fact nor a footnote is reported, but then no network is built and an exception is raised. |
| `C78_content_false` | The content of a footnote contains the footnote element itself and the text that follows it in the document. |
| `C79_order_false` | The order of a footnote below a fact is that of the first relationship that mentions the footnote, which may be one of another fact. |
| `C80_prefix_false` | The same prefixed names in another namespace scope yield the dimension and member of the first scope. |
| `C80_repeated_false` | The second value a segment states for a dimension is dropped without a report. |
| `C82_prefix_false` | A fact element whose document binds another prefix to the namespace of its concept is dropped, because names with different prefixes are different to the repository of report elements. |
| `C83_comment_false` | For headers with comments: they raise an exception. |
| `C83_hidden_false` | For hidden elements: a child that is no inline element is not reported; an exception is raised, as the arguments of the report do not fit its message. |
| `C83_prefix_false` | For elements written with another prefix than `ix`: a resources element is reported as an invalid child of the header and its contexts and units are lost. |
| `C83_references_false` | For references: a child that is neither a schema nor a linkbase reference is not reported; an exception is raised, as the arguments of the report do not fit its message. |
| `C86_prefix_false` | When another prefix is used for the name space of dimensions, a typed dimension becomes an explicit one, and no error tells. |
| `C86_relative_false` | A relative reference to another document of the taxonomy raises, since documents are known by their whole URI. |
| `C87_comment_false` | For comments: a reference in one is found. |
| `C87_entity_false` | For references to characters: they are not replaced. |
| `C87_pairs_false` | For lists of locations: of several pairs only the last one is read. |
| `C87_spaces_false` | For spaces around the equals sign, which XML allows: the reference is not found. |
| `C88_repeated_false` | For a repeated start text: there is no report, the opening fails. |
| `C89_dot_false` | For names that end with `html` without a dot: such a file is taken from a folder, and then nothing can be opened. |
| `C89_htm_false` | For inline filings in a single file `.htm` or `.html`: it is refused, although it is taken in a folder. |
| `C89_zip_false` | For archives: the names in the archive are looked up on the disk, where they are not, so an archive cannot be opened. |
| `C90_latest_false` | For dates: of the taxonomies of 2022-12-31 and 2023-01-31 the older one is taken, the sum of its numbers is larger. |
| `C91_comment_false` | A comment in a link ends the reading with an exception. |
| `C91_order_false` | An arc need not have an order, but without it, or with a decimal number as order, reading ends with a `ValueError`. |
| `C92_boolean_false` | For the other way to write truth values: a rule node that says `abstract="1"` is not abstract. |
| `C93_axis_false` | A relationship node that states its axis is never a node of a table. |
| `C93_concept_false` | For concepts: a relationship node for concepts is never a node of a table, unless it has a dimension element, which it may not have. |
| `C93_filters_false` | A table has no filters although the link gives it one. |
| `C93_found_false` | In documents whose root is a linkbase element of the XBRL name space, no table is found, whatever the documents contain. |
| `C93_source_false` | A relationship node for a dimension whose source is a member, as sources of such nodes are, is never a node of a table; sources must be concepts. |
| `C94_fact_false` | Nothing is printed about a fact: nodes that point to facts have empty texts. |
| `C94_weight_false` | Longer weights shift what follows, so that the columns are not aligned. |
| `C100_prefix_free_false` | If the link base binds the name space of XLink to another prefix than `xlink`, its labels are lost (the links are reported as having no role). |
| `C100_role_optional_false` | A label without `xlink:role`, which XBRL 2.1 makes optional, prevents the filing from being opened. |
| `C102_comment_false` | A comment among the parts of a reference prevents the filing from being opened. |
| `C103_dates_false` | If one filing of the type has no report date, no filing of the type can be opened without giving a date. |
| `C103_fresh_false` | Metadata that are more than one day old are used although newer ones are available. |
| `C104_label_false` | The label that is shown may be the documentation of a concept although the concept has a standard label in the same language. |
| `C104_plain_false` | Without languages the column of the definition network has another name (a misspelt one), so that it is missing under the name it has in the default language. |
| `C105_role_optional_false` | One label without `xlink:role`, which XBRL 2.1 makes optional, prevents a filing from being opened, although its schemas, instances and other links are valid. |
| `C106_root_language_false` | A link base may state its language once, at the root. Its labels are read in that language, but the filing does not list it: the output is not offered in the language of the report. |
| `C109_arcrole_false` | Every valid arc role reference is reported to have no `roleURI`, which it must not have. |
| `C109_linktype_false` | Every valid role reference is reported, because an attribute that does not exist is read for its link type. Nothing else is reported. |
| `C109_prefix_false` | Prefixes are free to choose, but of a reference in whose scope the prefix `xlink` is not bound no attribute is found, and it is reported to have no `href`. |
| `C112_fragment_false` | A reference to a place in the same document is a URI reference, and no such reference passes. |
| `C112_role_false` | So a relationship between facts and footnotes keeps any words as its role, without a report. |
| `C112_words_false` | Every text without the characters `: / ? # ;` that does not begin with a space passes, although a text with a space in it is no URI. |
| `C113_elements_false` | The dictionary does not say which report elements the nodes point to: whatever the elements are replaced with, the dictionaries of all nodes and networks stay the same. |
| `C114_concept_false` | Concepts of the same namespace and local name are not equal when their documents use different prefixes. |
| `C114_context_false` | Contexts are compared by their ids: adding any characteristics to the contexts of two facts leaves them equal, and contexts with all characteristics in common but different ids are not equal. |
| `C114_entity_false` | For all texts, the entity `b}c` of scheme `a` equals the entity `c` of scheme `a}b`. |
| `C114_unit_false` | Units are compared by the ids they have in their document: whatever the measures are, units of the same id are equal, and units of different ids are not. |
| `C115_weights_false` | A concept that is added to one total and subtracted from another in the same link is shown as added to both. |
| `C116_balance_false` | A calculation network is called balance consistent although concepts of different balances are added, if another arc to the same locator subtracts. |
| `C117_encoding_false` | A document that is not in UTF-8 is refused although the server has it, and reported as not available with a status of success. |
| `C117_local_encoding_false` | A local document that is not in UTF-8 is refused with a `ValueError`, without a report. |
| `C118_interrupted_false` | A process that is ended while it writes leaves a part of the document, which all later openings take for the document; it is never completed. |
| `C118_two_processes_false` | Of two processes, the second one may read an empty document while the first one writes it. |
| `C118_three_processes_false` | When two processes write the same document, a third one may read zeros where the document begins. |
| `C120_aggregation_false` | A valid filing with a wrong total passes the check, if another arc of the link that leads to the same summand states another weight. |
| `C121_dimension_false` | No fact with a dimension has a row, unless the default language is among the languages: the aspects of dimensions never get labels. |
| `C121_italian_false` | No fact has a row in Italian alone, although the translations contain Italian: the core aspects have no Italian titles. |
| `C121_table_false` | If languages are not mixed, one fact with a dimension empties the whole table. |
| `C121_unit_false` | An amount in US dollars is shown in euros if the id of the unit is EUR: the id is translated, not the measure. |
| `C121_unprefixed_false` | A dimension called `value` in the default namespace shares the column of the value, and its member is not shown. |
| `C122_member_false` | The same fact shows the label of its member if an XML instance states it, and only the local name if an inline document does. |
| `C123_exact_false` | The fact 0.1 is not read as one tenth. |
| `C124_right_total_refused_false` | The sum of 0.1 and 0.2 is reported as 0.3 and refused. |
| `C124_wrong_total_accepted_false` | A total that is wrong by one is accepted if it is above 2^53. |
| `C125_components_false` | Emptying the list that `get_all_components` returned removes all components from the filing. |
| `C125_errors_false` | Emptying the list that `get_all_errors` returned makes `has_any_errors` false. |
| `C125_aspects_false` | Emptying the list that `get_aspects` returned makes a fact with dimensions a core fact, although it keeps its characteristics. |
| `C125_units_false` | Emptying the list that `get_numerators` returned changes the unit for all facts that have it. |
| `C125_children_false` | Emptying the list that `get_children` returned makes a node a leaf, except in calculation networks. |
| `C126_ids_false` | If two schemas use the same id, which element a locator refers to depends on the order in which the documents are listed; the document part of the reference is ignored. |
| `C126_children_false` | Children whose arcs state the same order come in an order that differs between runs. |
| `C126_catalog_false` | Of two catalogs whose paths have the same length, the one that happens to be listed first is used. |
| `C127_names_false` | An abstract element whose name contains `LineItems` comes back as line items; a concept whose type has a name that contains `domainItemType` comes back as a member. |
| `C128_dimension_false` | In an inline filing the aggregation check fails for every total that has a fact with a dimension and a summand of another concept, whatever the numbers are. |
| `C128_zero_false` | In an inline filing the aggregation check raises an error, or fails, for a total whose fact states zero: the value of that fact is the empty text. |
| `C129_expression_false` | A filter for names of concepts that contains an expression, written as specified, is dropped as a whole: the text is compared where the name of the element is meant. |
| `C129_dimension_false` | No element is read as a filter for a dimension: the element of the dimension is rejected if it has a child, and says nothing if it has none. |
| `C129_specified_false` | No filter in the name spaces of the specifications (2008) is read; the parser expects 2014. |
| `C129_label_false` | The label of a filter is read from `label` instead of `xlink:label`, so filters have no label. |
| `C129_tables_false` | No table has a filter, whatever the link says and whatever is read as a filter: names of elements are compared without their brace. |
| `C130_elements_false` | One report element without a label in a preferred language is enough for the table of report elements to raise an exception, or, if languages are not mixed, to be empty. |
| `C131_unsupported_false` | `pprint` documents a `ValueError` for objects that are not supported and raises a `TypeError`. |
| `C132_core_table_false` | One concept of a core fact without a label in the language is enough for the table of core facts to be empty, or, if languages are mixed, to raise an exception. |

## Axioms

* none: `C11_explicit_false`, `C13_one_row_per_element_false`, `C46_areas`, `C47_getters`, `C52_tables_partial`, `C52_tables_stored_false`, `C59_library_languages`, `C103_fresh_false`
* propext: `C10_offered_languages`, `C11_effective_parameters`, `C12_own_source_false`, `C13_first_usable_language_false`, `C19_descendants_mono`, `C22_by_id_is_current_false`, `C29_earlier_names`, `C29_earlier_zero_false`, `C29_fixed_zero`, `C30_zero_false`, `C40_is_simple`, `C41_inline_unitless`, `C42_prefix_false`, `C44_boolean_false`, `C45_nearest`, `C51_equal_characteristics_partial`, `C59_filing_params_partial`, `C59_levels_independent`, `C59_other_parameters_kept_false`, `C71_nested_checks`, `C113_getters`, `C114_concept_false`, `C114_concept_partial`, `C114_unit_false`, `C118_three_processes_false`
* propext, Classical.choice, Quot.sound: `C01_first_characteristic_wins`, `C01_has_iff_lookup`, `C01_later_addition_ignored`, `C02_aspects_exact`, `C02_aspects_strictly_sorted`, `C03_facts_do_not_interfere`, `C03_stored_context_unchanged`, `C04_boolean`, `C04_integer`, `C04_kinds`, `C04_numeric`, `C04_standard_types`, `C04_text`, `C05_core_facts`, `C05_is_core`, `C07_reported_concepts`, `C07_reported_concepts_raises`, `C08_by_qname`, `C08_by_text`, `C09_get_component`, `C14_label`, `C14_language_match`, `C14_translation`, `C15_main_label`, `C17_aggregation_exact`, `C17_aggregation_false`, `C17_all_sums_checked_partial`, `C17_missing_child_raises`, `C18_accepts`, `C18_children_in_order`, `C19_acyclic`, `C19_descendants_terminates`, `C20_children_sorted`, `C20_edge_iff`, `C20_edges`, `C20_networks`, `C20_nodes`, `C20_reported`, `C20_roots`, `C20_succeeds`, `C21_succeeds`, `C25_folder_partial`, `C25_folders_false`, `C25_outdated_false`, `C25_punctuation_false`, `C25_same_name_false`, `C25_scheme_false`, `C25_server_partial`, `C26_cycle_false`, `C26_loads_partial`, `C27_clark_roundtrip_false`, `C27_clark_roundtrip_partial`, `C27_clark_xml`, `C27_default_namespace_false`, `C27_prefix_declared`, `C27_prefix_roundtrip`, `C28_clark_search_finds_nothing`, `C28_schema_names_registered`, `C28_search_complete_false`, `C28_search_complete_partial`, `C28_search_concepts`, `C28_search_elements`, `C29_bad_scale`, `C29_decimal`, `C29_decimal`, `C29_decimal_rejects`, `C29_unit_false`, `C29_unit_partial`, `C29_unit_rejects`, `C30_integer_partial`, `C31_empty_sign_false`, `C31_minus_partial`, `C31_nil`, `C31_nil_one_false`, `C31_other_sign`, `C31_signed_scaled_partial`, `C31_text_value`, `C31_zero_false`, `C32_dutch_false`, `C32_era_fact`, `C32_fact`, `C32_fact`, `C32_german_false`, `C32_indian_false`, `C32_japanese_day`, `C32_japanese_day`, `C32_japanese_month`, `C32_lithuanian_false`, `C32_named_partial`, `C32_named_partial`, `C32_numeric`, `C32_numeric`, `C32_roman_false`, `C32_slovenian_false`, `C33_accepted`, `C33_acyclic_partial`, `C33_chains`, `C33_cyclic_false`, `C33_elements`, `C33_terminates_iff`, `C34_text`, `C34_value`, `C35_arcrole`, `C35_groups_partial`, `C35_linkrole_false`, `C36_document_false`, `C37_kept_partial`, `C37_lost_false`, `C37_unique`, `C38_entity_false`, `C38_entity_partial`, `C38_first_scheme`, `C39_comment_false`, `C39_content_partial`, `C39_iff_false`, `C39_kind_false`, `C39_lookup_partial`, `C39_none_iff`, `C39_reported_false`, `C39_reported_partial`, `C39_reported_partial`, `C39_unknown_typed_false`, `C40_divide`, `C40_empty_false`, `C40_measures_false`, `C40_reported_partial`, `C40_same_false`, `C40_simple`, `C40_whitespace_false`, `C41_context_false`, `C41_duplicate_false`, `C41_fact`, `C41_inline_elements`, `C41_inline_fact`, `C41_inline_partial`, `C41_inline_reported`, `C41_listed_partial`, `C41_no_id_false`, `C41_prefix_false`, `C41_reported`, `C41_root_false`, `C41_unit_false`, `C41_unknown_unit_false`, `C41_xml_partial`, `C42_all`, `C42_component`, `C42_filing`, `C43_boolean_false`, `C43_group_false`, `C43_head_false`, `C43_kinds`, `C43_standard_partial`, `C44_concept`, `C45_cycle_link_false`, `C45_ends`, `C45_inherited`, `C46_create`, `C46_history`, `C46_identifies`, `C46_messages_false`, `C46_partition`, `C46_sites`, `C46_sites_false`, `C47_reachable`, `C48_false`, `C48_footnotes`, `C48_none_partial`, `C48_partial`, `C49_created`, `C49_kinds`, `C49_refused`, `C50_cycle_false`, `C50_defined`, `C50_lines`, `C50_node`, `C50_parent`, `C51_same_context_equal_characteristics_false`, `C55_breakdown_does_not_matter_false`, `C55_foreign_concept`, `C55_irrelevant_fact_partial`, `C56_plain_code_partial`, `C56_system_language_never_matches`, `C56_system_language_selects_label_false`, `C57_concept_by_text`, `C57_element_by_text`, `C57_missing_is_none_false`, `C58_plain_row_complete`, `C58_row_complete_false`, `C58_row_complete_partial`, `C60_child_shows_its_arc_false`, `C60_first_arc_partial`, `C60_single_parent_partial`, `C61_children_order_determined_false`, `C61_same_children_partial`, `C62_prohibited_arcs_excluded_false`, `C62_use_ignored`, `C63_locator_respects_document_false`, `C63_resolves_fragment_partial`, `C63_unique_ids_partial`, `C65_label_without_arc_fails`, `C65_labels`, `C65_succeeds`, `C66_both_occurrences_shown_false`, `C66_separate_locators_partial`, `C67_below_unresolved_false`, `C67_every_end_in_a_network_false`, `C67_reachable_partial`, `C68_footnote_text_complete_false`, `C68_reference_parts_complete_false`, `C68_reference_parts_partial`, `C68_text_partial`, `C69_definition_twice`, `C69_objects`, `C69_reported_false`, `C69_tags`, `C70_accuracy`, `C70_id`, `C71_differs_false`, `C71_nested_false`, `C72_era_false`, `C72_month_false`, `C72_recurring_false`, `C73_fixed`, `C73_no_format`, `C73_unsupported`, `C74_escape_false`, `C74_escape_iff`, `C74_source`, `C74_value_partial`, `C75_once`, `C76_fact_false`, `C76_footnotes_partial`, `C76_structure`, `C76_structure`, `C77_reported`, `C77_unknown_false`, `C78_content_false`, `C78_data`, `C78_no_id`, `C79_order_false`, `C80_dimensions_partial`, `C80_prefix_false`, `C80_repeated_false`, `C81_period`, `C82_concept_partial`, `C82_prefix_false`, `C83_comment_false`, `C83_headers`, `C83_hidden_false`, `C83_hidden_partial`, `C83_prefix_false`, `C83_references_false`, `C83_references_partial`, `C83_resources`, `C84_networks`, `C85_created`, `C85_elements`, `C86_prefix_false`, `C86_relative_false`, `C86_typed_partial`, `C87_comment_false`, `C87_entity_false`, `C87_found_partial`, `C87_pairs_false`, `C87_spaces_false`, `C87_written`, `C88_chosen`, `C88_repeated_false`, `C88_rules`, `C89_dot_false`, `C89_file`, `C89_folder`, `C89_htm_false`, `C89_zip_false`, `C90_chosen`, `C90_default`, `C90_latest_false`, `C91_breakdowns`, `C91_comment_false`, `C91_nodes`, `C91_order_false`, `C91_reads_partial`, `C91_tables`, `C92_aspect`, `C92_boolean_false`, `C92_dimension`, `C92_rules`, `C93_axis_false`, `C93_concept_false`, `C93_filters_false`, `C93_found_false`, `C93_source_false`, `C94_elements`, `C94_fact_false`, `C94_weight`, `C94_weight_false`, `C95_columns`, `C95_defined`, `C95_fact`, `C95_rows`, `C96_accepted_partial`, `C97_fact`, `C97_roundtrip`, `C98_accepted_partial`, `C99_exact`, `C99_reports`, `C100_labels`, `C100_prefix_free_false`, `C100_role_optional_false`, `C101_everything`, `C101_nothing_else`, `C101_one_network`, `C102_comment_false`, `C102_no_cycles`, `C102_reports`, `C102_roles`, `C102_silent`, `C102_succeeds`, `C103_dates_false`, `C103_found_partial`, `C103_refused`, `C103_right`, `C104_label_false`, `C104_no_language`, `C104_plain`, `C104_plain_false`, `C104_rows`, `C105_facts_by_concept`, `C105_opens`, `C105_role_optional_false`, `C105_search`, `C106_all_languages`, `C106_label_languages`, `C106_languages_partial`, `C106_output_languages`, `C106_root_language_false`, `C107_everything`, `C107_nothing_else`, `C107_one_arc_role`, `C108_complete`, `C109_arcrole_false`, `C109_documents_partial`, `C109_linktype_false`, `C109_prefix_false`, `C109_reports`, `C110_opens_partial`, `C111_inline_partial`, `C111_refused`, `C111_xml_partial`, `C112_absolute_partial`, `C112_decision`, `C112_fragment_false`, `C112_role_false`, `C112_words_false`, `C114_context_false`, `C114_entity_partial`, `C115_labels_partial`, `C115_orders_partial`, `C115_weights_false`, `C115_weights_partial`, `C116_balance_false`, `C116_balance_partial`, `C117_added`, `C117_again`, `C117_encoding_false`, `C117_history`, `C117_local_encoding_false`, `C119_documents`, `C119_same_result`, `C120_aggregation_false`, `C120_aggregation_partial`, `C120_own_facts_partial`, `C121_default_partial`, `C121_dimension_false`, `C121_filing_partial`, `C121_italian_false`, `C121_no_language`, `C121_plain_partial`, `C121_row_partial`, `C121_table_false`, `C121_unit_false`, `C121_unprefixed_false`, `C122_filing_partial`, `C122_member_false`, `C122_members_ignored`, `C122_row_partial`, `C123_float`, `C123_float_error`, `C123_unique`, `C123_value`, `C123_exact_partial`, `C123_exact_false`, `C124_exact_partial`, `C124_tolerance_partial`, `C124_nan`, `C124_nan_arithmetic`, `C124_infinite_arithmetic`, `C124_own_facts_partial`, `C124_right_total_refused_false`, `C124_wrong_total_accepted_false`, `C125_own_lists_partial`, `C125_untouched`, `C125_last_change`, `C125_private`, `C125_components_false`, `C125_errors_false`, `C125_aspects_false`, `C125_units_false`, `C125_children_false`, `C126_valid`, `C126_same_partial`, `C126_weights_partial`, `C126_orders_partial`, `C126_preferred_labels_partial`, `C126_balance_partial`, `C126_aggregation_partial`, `C126_search`, `C126_facts_by_concept`, `C126_path_partial`, `C126_ids_false`, `C126_children_false`, `C126_catalog_false`, `C127_roundtrip`, `C127_arcs_partial`, `C127_names_false`, `C128_balance_partial`, `C128_aggregation_partial`, `C128_core_facts`, `C128_amounts_partial`, `C128_dimension_false`, `C128_zero_false`, `C129_concept_partial`, `C129_period`, `C129_date`, `C129_forever`, `C129_expression_false`, `C129_dimension_false`, `C129_specified_false`, `C129_label_false`, `C129_tables_false`, `C130_elements_partial`, `C130_elements_false`, `C130_components`, `C130_labels`, `C130_inline_partial`, `C131_component`, `C131_component_defined`, `C131_components`, `C131_interrupted`, `C131_deep`, `C131_single`, `C131_facts`, `C131_unsupported_false`, `C131_filing`, `C131_all`, `C132_core_partial`, `C132_by_name`, `C132_by_text`, `C132_reported`, `C132_core_table_partial`, `C132_core_table_false`, `C133_core_partial`, `C133_by_name_partial`, `C133_by_text_partial`, `C133_reported_partial`, `C133_core_table_partial`, `C134_xml_partial`, `C134_inline_partial`, `C134_text_partial`, `C134_text_all`, `C134_xml_texts_partial`, `C134_inline_texts_partial`, `C134_xml_text_partial`, `C134_inline_text_partial`, `C135_elements_partial`, `C135_components`, `C135_inline_partial`, `C136_facts_partial`
* propext, Quot.sound: `C06_every_stored_fact_listed_false`, `C06_facts_without_id_lost`, `C06_get_all_partial`, `C06_get_by_id`, `C08_facts_of_concept`, `C10_preferred_languages`, `C12_equal_flags_partial`, `C12_flags_swapped`, `C13_mixed`, `C13_only_last_language_partial`, `C13_rows_after_last_failure`, `C14_table_from_rows`, `C16_balance`, `C18_other_class`, `C19_all_nodes`, `C19_all_nodes_defined`, `C19_arc_roles`, `C19_cycle_raises`, `C19_descendants`, `C19_get_root`, `C21_children`, `C21_node_data`, `C21_none_and_one`, `C21_objects`, `C21_relations`, `C22_all`, `C22_by_id`, `C22_by_id_partial`, `C22_by_name`, `C22_typed_by_name`, `C23_consistent`, `C24_first_inserted_rule`, `C24_longest_rule_false`, `C24_rewrites_prefix`, `C24_unique_rule`, `C29_unknown_format`, `C36_defaults_partial`, `C36_order_false`, `C42_refused`, `C42_unbound_false`, `C45_cycle_false`, `C46_eight`, `C46_short`, `C47_constructed`, `C53_networks`, `C54_lookup`, `C59_library_params_partial`, `C64_link_order_irrelevant_false`, `C64_same_relations_partial`, `C93_found_partial`, `C103_fresh_partial`, `C108_disjoint`, `C108_members`, `C112_split`, `C113_defined`, `C113_elements_false`, `C113_mirrors`, `C113_network`, `C114_entity_false`, `C114_equivalence`, `C114_period`, `C118_alone`, `C118_interrupted_false`, `C118_quiet_partial`, `C118_two_processes_false`, `C118_whole`, `C125_values`

## Functions of /repo/brel without a definition of their own in the model

Constructors that store their arguments and getters that return a field are represented by the fields of the structures. One-line functions are not listed.

| File | Functions |
| --- | --- |
| brel_filing.py | generate_fact_table_spark_df, generate_core_fact_table_spark_df |
| cli.py | main |
| config/brel_config.py | get_system_language |
| contexts/filing_context.py | get_xml_service, get_report_element_service, get_file_service, get_uri_rewrite_repository, get_translation_service, get_table_linkbase_repository, get_report_element_repository, get_network_repository, get_namespace_repository, get_context_repository, get_component_repository, get_characteristic_repository, get_aspect_repository, __lazy_cache |
| data/characteristic/characteristic_repository.py | get_or_create |
| data/factory.py | create_file_repository |
| data/file/pyfs_file_repository.py | PyFsFileRepository.__init__ |
| formula/aspects/concept_formula.py | get_qname, get_expression, ConceptFormula.__init__ |
| formula/aspects/dimension/dimension_formula.py | DimensionFormula.__init__ |
| formula/aspects/dimension/explicit_dimension_formula.py | ExplicitDimensionFormula.__init__ |
| formula/aspects/entity_identifier_formula.py | EntityIdentifierFormula.__init__ |
| formula/aspects/period/period_duration_formula.py | PeriodDurationFormula.__init__ |
| formula/aspects/period/period_instant_formula.py | PeriodInstantFormula.__init__ |
| networks/calculation_network.py | CalculationNetwork.__init__ |
| networks/definition_network.py | DefinitionNetwork.__init__ |
| networks/definition_network_node.py | DefinitionNetworkNode.__init__ |
| networks/footnote_network.py | FootnoteNetwork.__init__ |
| networks/footnote_network_node.py | FootnoteNetworkNode.__init__ |
| networks/i_network.py | get_arc_name |
| networks/label_network.py | LabelNetwork.__init__ |
| networks/label_network_node.py | LabelNetworkNode.__init__ |
| networks/presentation_network.py | PresentationNetwork.__init__ |
| networks/presentation_network_node.py | PresentationNetworkNode.__init__ |
| networks/reference_network.py | ReferenceNetwork.__init__ |
| networks/reference_network_node.py | ReferenceNetworkNode.__init__ |
| parsers/XHMTL/networks/xhtml_footnote_network_elements.py | XHTMLFootnoteNetworkElements.__init__ |
| parsers/XML/networks/xml_calculation_network_factory.py | create_network |
| parsers/XML/networks/xml_definition_network_factory.py | create_network, create_network |
| parsers/XML/networks/xml_footnote_network_factory.py | create_network |
| parsers/XML/networks/xml_label_network_factory.py | create_network |
| parsers/XML/networks/xml_presentation_network_factory.py | create_network |
| parsers/XML/networks/xml_reference_network_factory.py | create_network |
| parsers/XML/table_linkbase/xml_table_linkbase_parser.py | assert_is_xlink_type |
| parsers/utils/error_utils.py | error_on_none |
| parsers/utils/iterable_utils.py | get_first |
| parsers/utils/lxml_utils.py | clone_element_without_children |
| parsers/utils/lxml_xpath_utils.py | add_xpath_functions |
| reportelements/abstract.py | Abstract.__init__ |
| reportelements/dimension.py | Dimension.__init__, get_type |
| reportelements/hypercube.py | Hypercube.__init__ |
| reportelements/lineitems.py | LineItems.__init__ |
| reportelements/member.py | Member.__init__ |
| resource/brel_footnote.py | BrelFootnote.__init__ |
| resource/brel_reference.py | convert_to_dict, BrelReference.__init__ |
| services/file/file_service.py | FileService.__init__ |
| services/report_element/report_element_service.py | ReportElementService.__init__ |
| services/translation/translation_service.py | TranslationService.__init__ |
| services/xml/xml_file_parser_resolver.py | XMLFileParserResolver.__init__ |
| services/xml/xml_service.py | XMLService.__init__ |
| table_linkbases/definition_model/breakdown.py | Breakdown.__init__ |
| table_linkbases/definition_model/definition_nodes/aspect_node.py | AspectNode.__init__ |
| table_linkbases/definition_model/definition_nodes/closed_definition_node.py | ClosedDefinitionNode.__init__ |
| table_linkbases/definition_model/definition_nodes/concept_relationship_node.py | ConceptRelationshipNode.__init__ |
| table_linkbases/definition_model/definition_nodes/definition_node.py | DefinitionNode.__init__ |
| table_linkbases/definition_model/definition_nodes/dimension_relationship_node.py | DimensionRelationshipNode.__init__, get_dimension |
| table_linkbases/definition_model/definition_nodes/relationship_node.py | RelationshipNode.__init__ |
| table_linkbases/definition_model/definition_nodes/rule_node.py | RuleNode.__init__ |
| table_linkbases/definition_model/definition_nodes/rule_set.py | RuleSet.__init__ |
| table_linkbases/definition_model/table.py | Table.__init__, add_breakdown |
