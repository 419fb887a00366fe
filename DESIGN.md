# Formal model of soapfish

Source under study: `/repo` (soapfish, Python), read as text only.  Model and proofs: Lean 4 in
`/verif/lean/Verif`.  Everything in the model is executable, total Lean; Python exceptions are values (`Except Exn`).

* `lean/Verif/*.lean` — the model, function by function, with file and lines of the source at each definition, and
  helper lemmas (`*Lemmas`, `GenerateBuild`, `GenerateRender`, `SpecSurvives`, `Sim`, `WsdlLookup`, `RunTexts`,
  `RunSchema`, `RunInPlace`).
* `lean/Verif/Spec/*.lean` — vocabulary of the theorems, written independently of the model's functions.
* `lean/Verif/Props/*.lean` — the property theorems `Cnn_*` with concrete examples beside them.
* `lean/Verif/Audit.lean` — prints the axioms of every theorem of `MANIFEST.json`.
* `properties.jsonl` — the properties in words; `MANIFEST.json` — which theorems prove them.
* `seeded/LOG.jsonl` — wrong programs tried against the theorems.

## Trusted base

* The Lean kernel.  Axioms: `propext`, `Classical.choice`, `Quot.sound` only (`lean/Verif/Audit.lean` lists them per
  theorem).  No own axioms, no `sorry`, no `native_decide`, no `bv_decide`.
* The reading of the Python source by hand into Lean.
* Behaviour of libraries that is *modelled*, i.e. assumed to be as written in the definitions:
  - CPython: `int(str)` and `float(str)`, `str` of numbers, `str.split/replace/strip/startswith`, letter case of ASCII
    letters, `re` on classical regular expressions (for patterns in documents, the meaning of a pattern
    text is a parameter `compile`), `string.Template`, `cgi.parse_header`, `posixpath`,
    `urllib.parse.parse_qs`, `urlparse` and `urlunparse`, `datetime` calendar validity and `strftime`, `list.sort` (by insertion),
    `functools.total_ordering`, `dir()`/descriptor lookup along the MRO, `keyword.kwlist`, `http.client.responses`.
  - floats are identified with their shortest decimal text.
  - lxml: a document is a tree of elements (namespace, local name, attributes, text, children), comments and processing
    instructions.  Tail text and namespace prefixes are not part of it.  What serialising and parsing does to a document
    (`Back` in `Xml.lean`) is: empty text becomes None, and white space may be added to elements with children
    (pretty printing).  Text with characters XML does not allow raises ValueError.
  - jinja2: the templates are read as functions from the description objects to a list of statements; for XSD documents the
    text of these statements is modelled as well (`Verif/Template.lean`), apart from the number of empty lines.  Python's lexical rules for names and string literals are those of `Verif/Run.lean`;
    code whose effect is not described there is the outcome `unmodelled`, about which no theorem claims anything.
  - header names: Django and Werkzeug give `HTTP_*` variables as described in `Verif/Adapters.lean`.
* Behaviour that is a *parameter* of the model (the theorems hold for every choice): XSD validation by libxml2 (an
  arbitrary predicate; validating comments or processing instructions raises ValueError), `iso8601.parse_date` outside
  canonical texts (`IsoCanonical`), `etree.tostring` in comparisons, `urljoin`, user methods, middlewares and hooks (arbitrary
  programs, `Prog`), exception texts, `uuid`, the HTTP transport between client and server (`Travels`: documents arrive up
  to `Back`), file systems (a function from paths to documents).

## What is modelled

| Source | Model | Properties |
|---|---|---|
| `xsd.py` simple types, `xsd_types.py`, `utils.timezone_offset_to_string` | `Py`, `Value`, `Regex`, `Simple` | C01–C17 |
| `xsd.py` complex types: descriptors, construction, assignment, rendering, parsing | `Xml`, `Complex` | C18–C33, C96 |
| — comparison, hashing, ordering | `Compare` | C34 |
| — objects with identity | `Heap` | C35 |
| — `ComplexTypeMetaInfo` | `Meta` | C36 |
| `soap_dispatch.py`, `soap.py` services, `core.py`, `middlewares.py` | `Dispatch`, `Http` | C37–C49, C71, C95, C99 |
| `soap11.py`, `soap12.py`, `soap.py` client | `Soap`, `Client` | C50–C54, C60, C69 |
| `django_.py`, `flask_.py`, WSGI application | `Adapters` | C55, C56, C72 |
| `xsd.Schema` lookup, `walk_schema_tree`, `Service.get_method/route` | `Schemas` | C57–C59 |
| `wsa.py` | `Wsa` | C70 |
| `utils.py` names | `Names` | C68, C73 |
| `utils.resolve_location`, `xsd2py.rewrite_paths` | `Paths` | C67, C74 |
| `wsdl2py.reorder_schemas`, `merge_imports` | `Imports` | C66, C75, C76 |
| `xsd2py._reorder_complexTypes` | `Order` | C77 |
| `xsd2py.generate_code_from_xsd`, `resolve_import` (which documents are read, in which order) | `Includes` | C78 |
| `xsdspec.py`, `wsdl11.py`, `wsdl12.py` | `Xsdspec` (class table) | C79–C83 |
| `py2xsd.py` | `Generate` | C62–C65, C79, C80, C82 |
| `py2wsdl.py`, `wsdl.py` | `Wsdl` | C61, C81–C83 |
| `templates/xsd.jinja2`, `templates/lib.jinja2`, `xsd2py.schema_to_py` | `Code` (statements), `Describe` (what the templates read) | C85 |
| importing the generated code: class statements, `ComplexTypeMetaInfo`, `Schema.__init__` | `Run` | C85 |
| what the types in the generated code accept | `RunTypes` | C84 |
| the class table of imported generated code, `create` | `RunTable` | C86, C87, C88, C89 |
| `utils.url_template`, `utils.url_component`, `urllib.parse.urlparse`, `urlunparse` | `Url` | C90 |
| `templates/wsdl.jinja2`, `wsdl2py.generate_code_from_wsdl` | `ServiceCode` (statements) | C91, C92, C94 |
| importing the code generated from WSDL documents | `ServiceRun` | C91, C92, C94 |
| `SOAPDispatcher.__init__`, `_rewrite_locations`, `py2xsd.schema_validator` (lxml's part is a parameter) | `Serve` | C93 |
| `utils.find_xsd_namespaces`, the set of prefixes in `wsdl2py` | `Namespaces` | C97 |
| `ComplexType.parse_xmlelement`, `Element.parse`, `ListElement.parse`, `Attribute.parse` with object identity | `HeapParse` | C98 |
| `SOAPDispatcher.dispatch` and what it calls, in single accesses to request objects, in threads that take turns | `Threads` | C100 |
| `templates/xsd.jinja2`, `templates/lib.jinja2`, character by character; how Python reads source text | `Template` (text), `Python` (reader) | C101 |
| `templates/wsdl.jinja2`, character by character; `utils.url_regex`, `re.escape` | `WsdlTemplate` (text) | C102 |
| two programs with classes of their own (no code of its own: `Complex`, `Client` and `Dispatch` on both sides) | `Spec/Paired`, `PairedLemmas`, `PairedSurvive` | C103 |
| classes of a program and of the code generated from its XSD document (no code of its own: the generators, `RunTable`, `Complex`) | `Spec/Shown`, `ShownTypes`, `ShownClasses` | C104 |
| hand-written server and generated client (no code of its own: `ServiceRun`, `RunTable`, `Dispatch`, `Client` put together) | `Spec/Loaded`, `LoadedLemmas` | C105 |
| references, groups and lists in generated code (`Code`, `Run`: the macros for groups, attribute groups, references and lists) | `Spec/References`, `ReferencesLemmas` | C106 |
| what the XSD document of a program says about the documents it writes and reads (composition of C87, C88, C103 and C104; no new definitions of code) | `Spec/Published`, `PublishedDocument`, `PublishedLemmas`, `PublishedRead`, `PublishedKnown` | C107 |
| requests of generated clients and the validator of the dispatcher (composition of C105 and C107; no new definitions of code) | `Spec/Validated`, `ValidatedLemmas` | C108 |
| `ComplexType.xml` and `parsexml` with texts and validation, the class `Document` | `Whole` | C109, C110 |
| headers of calls in both directions (composition of C52, C54 and C103; no new definitions of code) | `Spec/Headers` | C111 |
| objects that cannot be answered with (`handle_soap_request`; no new definitions of code) | `Dispatch` | C112 |
| equality of dates (`xsd_types.py`) | `DateObj` | C113 |
| servers and their XSD documents (composition of C107 and C52; no new definitions of code) | `Spec/Contract` | C114 |
| recursion limits (no new definitions of code) | `Complex` | C115 |
| the text 'nil' (no new definitions of code) | `Simple`, `Complex` | C116 |
| code for XSD documents that include or import each other, and importing it (`xsd2py.py`, `templates/xsd.jinja2`, `templates/lib.jinja2`) | `Files` | C117 |
| command line programs, `open_document` (`xsd2py.py`, `wsdl2py.py`, `py2xsd.py`, `py2wsdl.py`, `utils.py`) | `Main` | C118 |
| schemas of a WSDL document that import each other (no new definitions of code) | `ServiceCode`, `Imports` | C119 |
| schemas of a WSDL document that refer to XSD documents (`wsdl2py.py`) | `WsdlFiles` | C120 |
| texts of decimals and floats (no new definitions of code; `Spec/Conforms` and `Spec/Kept` use them for C87, C88, C107–C109, C114) | `Spec/Numerals`, `Props/Numerals` | C121 |
| XSD documents on web servers (`rewrite_paths` with `urllib.parse.urljoin`, `resolve_location`) | `Remote` | C122 |
| values assigned to repeated elements as a whole (no new definitions of code) | `Props/Assigned` | C123 |
| choices in generated code (no new definitions of code) | `Props/Choices` | C124 |
| `soapfish/xsd.py` `ComplexType`, `Element`, `TypedList` once more, with methods hidden by fields of the same name | `Hidden` (copies of the functions in `Complex` with the lookups of `accept`, `render`, `xml` and `parse_xmlelement`; other names that the library looks up are not treated), `Props/Hidden` | C125 |
| groups in generated XSD documents (no new definitions of code) | `Props/Groups` | C126 |
| complex types derived by restriction in generated code (no new definitions of code) | `Props/Restricted` | C127 |
| the texts `float()` takes, exactly (no new definitions of code) | `Spec/FloatText`, `Props/FloatText` | C128 |
| collisions of `schema_name` (no new definitions of code) | `Props/Collisions` | C129 |
| bases of derived complex types (no new definitions of code) | `Spec/Derived`, `Props/Derived` | C130 |
| names of classes that definitions share (no new definitions of code) | `Props/SameName` | C131 |
| documents of a dispatcher as inputs of the generators (no new definitions of code) | `Spec/Fetched`, `Props/Fetched` | C132 |
| header classes of generated code: `ComplexTypeMetaInfo` for Elements shared by classes | `HeaderClasses`, `Spec/HeaderClasses`, `Props/HeaderClasses` | C133 |
| parts of XSD documents that are not looked at | `Spec/Overlooked`, `Props/Overlooked` | C134 |
| parts of WSDL documents that are not looked at | `Spec/OverlookedWsdl`, `Spec/Unread`, `Spec/Used`, `ServiceForget`, `Trim`, `Props/OverlookedWsdl`, `Props/Unused` | C135 |
| the version of SOAP of generated services, and of envelopes | `Spec/Mixed`, `Props/Mixed`, `Props/Envelopes`, `Props/Reported` | C136, C137 |
| requests and answers of a stub | `Exchange`, `Spec/Exchange`, `Props/Exchange` | C138 |

Method of proof: case analysis over a universe of Python values for simple types, with induction on digit lists, texts and
regular-expression derivatives; induction on recursion depth, field lists and operation histories for complex types; a
simulation lemma (`Sim`) for parsing; frame invariants for the heap; induction on user programs for the dispatcher;
refinement of the generators against an independent description of the document; loop invariants for the graph walks.

## What is not modelled

Parsing of command line arguments (argparse), links in file systems, `requests`, logging output text, network access, threads (except for request objects, C100), memory limits (recursion depth is
a parameter where it matters), the shape of tracebacks, namespace prefixes in serialised documents (generated documents
declare `sns`, `tns`, `xsd`, `soap`, `wsdl`; the theorems are about the texts `sns:name`).  `lib/attribute_dict.py`, which only the
test helpers use.

## Disagreements between the code and natural expectations

Each is proved as a theorem or a concrete example next to the theorem that states what does hold.

* C04 the text `nil` reads as None for numeric types.
* C08 a pattern with alternation at top level is not anchored: `a|b` becomes `a|b$` (`C08_alternation_prefix`).
* C12 dates before the year 1000 are written with fewer than four digits and cannot be read back.
* C15 NaN passes all bounds.  C16 `fractionDigits=0` refuses every float (`C16_fraction_zero`).
* C21, C62 a list with `maxOccurs=0` is not limited when rendered.
* C24 a list assigned as a whole is not checked (`C24_list_assignment_unchecked`).
* C25 the empty string is read back as None (`C25_empty_string`).
* C28 a processing instruction among the children raises TypeError.
* C30 an attribute with a tag name is written under the tag name and read under the field name, so it is lost.
* C34 instances built by hand are unequal even to copies of themselves, and ordering is False both ways.
* C35 lists inside groups (`Ref`) are shared between instances (`C35_group_lists_shared`).
* C36 one descriptor under two names is listed under the last name only (`C36_alias`).
* C39 a root tag that is declared, but is no method's input and has no substitution group, gives no fault: AttributeError
  escapes (`C39_no_group`).
* C42 a fault text with characters XML does not allow raises ValueError instead of giving a fault.
* C46 the hook `xsd-response` is never called (`C46_no_xsd_response`); hook names are only checked at their beginning.
* C50 plain WSGI and Flask never see the SOAPAction header under the name the dispatcher looks for (`C50_wsgi`).
* C56 a negative content length reads everything (`C56_negative`).
* C57 two schemas without a location are taken for one.  C58 cyclic imports end in RecursionError.
* C61 of two methods with one name the second gets the messages of the first; a colon in a name breaks the lookup.
* C63 `NMTOKEN`, `NMTOKENS`, `NonNegativeInteger` and others are written in the target namespace, where nothing defines them.
* C64 facets that are zero, and enumerations of derived types, are left out of the XSD.
* C65 a schema using attributes cannot be generated at all (`xsdspec.Attribute` requires `ref`).
* C66 schemas are ordered only where imports are one level deep (`C66_chain`).
* C68, C73 names that differ in the case of the first letter clash; type references are ambiguous between namespaces.
* C72 bad requests are answered with status 200; an unknown status code has the text `None`.
* C76 the directory drifts from one WSDL import to the next (`C76_sibling`); cycles through different spellings do not end
  (`C76_cycle`).
* C77 a prefixed base makes the comparison inconsistent; missing bases raise KeyError; a complex content with neither
  extension nor restriction uses an unbound variable.
* C78 the root document is generated twice if it is included again (`C78_root_twice`).
* C80 types of other schemas dangle in the generated XSD (`C80_foreign_dangles`).
* C83 `soap:binding` and `soap:operation` are misplaced in generated WSDL documents.
* C84 in generated code, restrictions of number types and of dates have no effect at all; of the restrictions of text types
  only the last pattern and the last enumeration count, lengths never; numbers enumerated in place refuse every number;
  inclusive bounds in place are ignored for types with bounds of their own.
* C86 an element with a complex type in place vanishes from the generated class but stays a parameter of `create`, which then
  always raises an exception (`C86_create_never`); an element with a simple type in place is always single and required.
* C87 completeness of an instance is not enforced: a required element left None is left out (`Ex.C87_missing_element`), and a
  list whose declaration has no minOccurs may be empty though XSD's default is 1 (`Ex.C87_missing_items`).
* C88 an element with an empty text is read as None and left out when written, even when it is required
  (`Ex.C88_empty_text`); an attribute named after a keyword is lost (`Ex.C88_keyword_attribute`).
* C89 an instance of an extension in a field of the base type is written without `xsi:type`: the document is not valid
  (`Ex.C89_not_valid`), and the values of the extension are lost when it is read (`C89_sliced`).
* C90 an address loses delimiters with nothing behind them; a dollar sign in the path is substituted (`Ex.C90_dollar`); the
  stub for a relative address goes to `://…` (`C90_relative`); placeholders are put in front of placeholders
  (`C90_templated`).
* C91 each way through WSDL and generated code adds `Port` to the name of a service and replaces scheme and host of its
  location by placeholders; operations named like an attribute of stub objects (`username`, `password`, `service`,
  `location`) cannot be called, an operation named `call` makes all calls fail.  Operations named `SERVICE`, `SCHEME`,
  `HOST` or `_handle_response` hide what the class `Stub` uses itself and are not modelled.
* C92 in code generated from a WSDL document, texts are put between quotes as they are, so that `\t` in a SOAP action becomes
  a tab; a SOAP action that is missing becomes the text `None`; operations of the same name all become the last one of
  them; schemas with the same target namespace share one object; header classes are named after messages, so that the class
  for the input is lost if the output message has the same name (`Verif/Spec/Described.lean` spells all this out).
* C93 links in served documents are not encoded, so that a location with `+`, `&` or `%` cannot be followed (`C93_plus`); an
  import without a location, which XSD allows, makes the constructor of the dispatcher raise KeyError (`C93_missing`); a
  service with several schemas has no dispatcher at all.
* C95 a dispatcher without ExceptionToSoapFault lets exceptions escape for documents that any client can send: an empty Body
  (`C95_empty`), comments where elements are expected (`C95_comment`, `C95_header_comment`), `xsi:nil` on Header or Body
  (`C95_nil_header`, `C95_nil_body`), a processing instruction in the envelope (`C95_instruction`).
* C96 a class with a field (even an optional one) whose type leads back to the class can never be instantiated, and code
  generated from an XSD document with such types cannot be imported (`C96_never`, `C96_import`); lists are fine.
* C97 whether a name is one of XML Schema depends on its prefix and one set for all documents: with two schemas of a WSDL
  document, one with XML Schema as default namespace and the other with its own, unprefixed names go wrong in one of them,
  silently where XML Schema has a type of that name (`C97_conflict`); prefixes declared inside a schema are not seen
  (`C97_inner`).
* C98 parsing gives what the document says whatever happened before, but a new instance of a class with a group does not start
  empty: the lists of the group are those of all other instances of the class, so that what one request appended is in the next
  response (`C98_shared`).
* C99 validation and reading are about different things: a message that is valid as any element of the service, sent with the
  SOAP action of a method, gets this method called with all fields None, required ones included (`C99_unchecked`).
* C101 texts of a document are written into the code between quotes without escaping: a value with an apostrophe gives code that
  Python cannot read, and a value like `', f(), '` gives code that calls `f` when it is imported, so that generating and
  importing code from an XSD document of somebody else is running their code (`C101_injection`).
* C102 an input element named `header` or `self` gives a client, one named `request` gives a server that cannot be imported
  (a parameter occurs twice); a part with a type among the headers is written behind the line before; the target namespace, like
  every other text, can bring code into the module (`C102_injection`).
* C104 restrictions given in place that count as false in Python (a bound or a number of digits of zero) are not in the XSD
  document, so that the generated class accepts what the program refuses (`Ex.C104_zero`); enumerations given in place of
  numbers other than Decimal and of AnyURI, QName, Base64Binary and Duration are not in it either, so that `TypesKept`
  excludes them.
* C106 the type of a reference is the class named like what is referred to. Attributes never have one, and elements only if their
  complex type is in place, so `<attribute ref="xml:lang"/>` and references to elements with a named type give code that cannot
  be imported (`Ex.langDoc`, `Ex.refDoc`). Elements of groups are always required and occur once. List types become classes
  whose `accept` is not implemented, so no class with such a field can be instantiated (`C106_list`).
* C107 a ListElement without minOccurs accepts an empty list, but its declaration in the XSD document has no minOccurs either, which
  means one: the program writes documents that are not valid for its own XSD document (`ExPub.C107_open`).
* C110 `Document.render` ignores the tag name of the field and the schema of its value, so the document is not valid for the schema
  (`C110_names`); `Document.parsexml` returns nothing and changes the class, for all threads (`C110_back`); a list loses all items but the
  last one (`C110_refused`).
* C112 a method whose output is a class can be called by clients, but its dispatcher cannot answer: `response.content` is an attribute
  that does not exist (`C112_classes`).  The same happens to a middleware that answers a request itself (`C112_early`), and
  `ExceptionToSoapFault` is no help, because the exception is raised outside of all middlewares.
* C113 a date field is not equal to the `datetime.date` assigned to it (`C113_field`), but to every datetime of that day
  (`C113_datetimes`).  `XSDDate` defines `__eq__` without `__hash__`, so its values cannot be keys of dictionaries (not modelled).
* C116 the text 'nil' is taken for the absence of a value by all types but strings, although XML Schema has no such text: a document
  that is valid for no schema is read without complaint, and the element is lost (`C116_element`, `C116_lost`).  NIL in an attribute is
  written as this text, which is not valid for any number, date or truth value, and never comes back as NIL (`C116_attribute`).
* C117 `generate_code_from_xsd` takes a parent namespace and does not hand it on: an included document without target namespace, which
  XSD allows and calls chameleon, makes code generation fail (`C117_refused`).  Documents that include or import each other in a circle,
  which XSD allows, give code that cannot be imported (`C117_circle`).
* C118 The command line programs open, and so empty, the output file before anything is read: whatever goes wrong later leaves an empty
  file where there may have been one (`C118_emptied`), and a document that is to be replaced by its code is lost (`C118_same`).
  `py2xsd` wants a module variable `Schema`, which modules written by `xsd2py` do not have (`C118_chain`).
* C119 `reorder_schemas` goes through the schemas once.  A document whose schemas import each other without a circle, but with a chain of two imports
  in the wrong order, gives a module that cannot be imported (`C119_chain`).  The order of the document decides; sorted documents
  (`C119_sorted`) and documents whose imported schemas import nothing (`C119_leaves`) work.
* C120 The code of an XSD document that two schemas of a WSDL document import is generated twice (`C120_copies`), so there are two classes for each
  of its types.  A schema that imports an XSD document counts as one that cannot be put in order (`C120_outside`).
* C121 a Decimal field writes floats below 0.0001 or from 10^16 on with a power of ten, which `xsd:decimal` does not allow
  (`C121_decimal`); infinite floats and NaN, which valid documents can contain, are written as `inf` and `nan`, which are not valid
  (`C121_double`); truth values are accepted and written as `True` and `False`, which the field cannot read (`C121_int_bool`).
* C122 Relative references in documents on web servers are resolved one directory too high, because the directory of the first
  document is passed to `urljoin` without a slash at the end (`C122_wrong`); those in further documents are resolved from the same place,
  wherever the document is (`C122_only`), or as local files if the first document is local (`C122_local`).  Only documents at the root of a
  host work (`C122_right`).
* C123 What is assigned to a repeated element is never checked: a text is written character by character (`C123_characters`), None makes
  rendering fail (`C123_not_iterable`), and documents are written that their own class cannot read (`C123_unreadable`).
* C124 Classes for complex types with a choice read none of their children (`C124_unread`), so that valid documents come back empty
  (`C124_lost`), and write as many alternatives as are set (`C124_several`).
* C125 Fields called `accept`, `render`, `xml` or `parse_xmlelement` hide the methods of complex types (`C125_accept`, `C125_render`,
  `C125_methods`), and generated code has such fields if the XSD document has such elements (`C125_generated`).  All other properties about
  classes are about `Verif/Complex.lean`, where fields hide nothing; `C125_same` says that this makes no difference for classes without
  such fields.  Generated classes lose an element called `create` (`C125_create`).
* C126 Generated XSD documents leave out groups, so that they forbid what instances with something in a group are written as
  (`C126_rejected`), although the classes read it.
* C127 Generated classes for complex types derived by restriction read and write elements that the restriction leaves out
  (`C127_left_out`, `C127_written`).
* C128 Decimal and float types read texts that XML Schema does not allow: underscores between digits, digits of other scripts, and
  the words `inf`, `infinity` and `nan` in any case with a sign (`C128_decimal_text`).
* C129 Two namespaces may have the same variable in generated code; a document that imports both gets one of them twice
  (`C129_lost`, `C129_always`).
* C130 A complex type that is derived from `anyType`, the long form of a plain complex type, gives code that cannot be imported
  (`C130_builtin`).
* C131 A complex type and an element with its type in place may have the same name in XML Schema; in generated code the class of
  the type is lost (`C131_lost`).
* C132 `xsd2py` and `wsdl2py` cannot read the documents that soapfish's own dispatcher serves, if these have imports rewritten to
  '?xsd=…' and the service is not at the root of its host (`C132_none`).
* C133 Generated header classes write and read the names of message parts where the WSDL document asks for the names of elements
  (`C133_written`, `C133_ignored`), so that servers reject them (`C133_rejected`), and a header class may change the names of the fields of an earlier one (`C133_shared`).
* C134 Simple content, wildcards, references to groups, choices inside sequences or extensions, and defaults are dropped without
  an error (`C134_code`): a complex type with simple content loses its text and its attributes (`C134_empty`).  A union gives
  code that cannot be imported (`C134_union`).
* C135 Faults, and the parts, use and namespace of a body, are dropped from generated code without an error (`C135_unread`,
  `C135_documents`); an
  `http:binding` is taken for a `soap:binding`, because namespaces of tags are not looked at (`C135_code`).
* C136 If a WSDL document has a binding for SOAP 1.1 and one for SOAP 1.2, which is common, all generated services are for SOAP
  1.2, also that of the port with the binding for SOAP 1.1 (`C136_versions`, example `both`).
* C137 Messages of the wrong version of SOAP are treated as if they were of the right one, where SOAP asks for a fault
  VersionMismatch (`C137_dispatch`).  A client for SOAP 1.2 raises AttributeError for faults of SOAP 1.1 (`C137_fault11`).
* C138 A client does not look at the status of an answer: one with status 404 or 500 is a success if it has a proper envelope, and
  the page of a web server for an error is an XMLSyntaxError without the status (`C138_status`, `C138_page`).
