{"id": "C01", "title": "Integer types accept exactly their XSD value range", "statement": "For xsd.Integer and each of its twelve derived types built without extra facets, assigning a Python int v to a field of that type succeeds and stores v exactly when v lies in the type's XSD range (e.g. Byte: -128..127, UnsignedInt: 0..4294967295, PositiveInteger: >= 1, Integer: all integers); otherwise ValueError is raised.", "quantifier": "all thirteen integer types and all (unbounded) Python ints", "why_tests_cant": "the value range is infinite and a boundary can be wrong at any of 24 places", "anchors": ["soapfish/xsd.py: Integer.accept, Decimal._check_restrictions, Integer.overrides, NonNegativeInteger..UnsignedByte"]}
{"id": "C02", "title": "Integer text round trip", "statement": "Every int stored in an integer-typed field is written as an optional '-' followed by decimal digits without leading zeros, and parsing that text with the same type gives the same int back.", "quantifier": "all integer types and all ints the type accepts", "why_tests_cant": "there are infinitely many ints; a test can only write and read back some of them, and a sign or a leading zero may go wrong at any length", "anchors": ["soapfish/xsd.py: Decimal.xmlvalue, Decimal.pythonvalue, Integer.accept"]}
{"id": "C03", "title": "Integer facets passed to the constructor", "statement": "For xsd.Integer with any combination of enumeration, min/max inclusive/exclusive bounds and totalDigits passed to the constructor, an int is accepted exactly when it satisfies every one of them (totalDigits counting a minus sign as a digit). For a derived integer type, exactly those constructor facets that the type or one of its integer ancestors fixes itself are replaced by the fixed value, all others are enforced.", "quantifier": "all facet combinations, all integer types, all ints", "why_tests_cant": "every subset of the facets may be combined, with any bounds; tests try a few combinations with a few values", "anchors": ["soapfish/xsd.py: Integer.__init__, Decimal._check_restrictions"]}
{"id": "C04", "title": "Integer text is never silently misread", "statement": "Parsing any text with an integer type either returns an int that is in range and is the number the text denotes under Python's int() grammar (sign, ASCII/Unicode decimal digits, single underscores between digits, surrounding white space), or returns None for the text 'nil', or raises ValueError; no other outcome exists.", "quantifier": "all strings, all integer types", "why_tests_cant": "malformed texts cannot be enumerated; a test shows that some are rejected, not that none is misread", "anchors": ["soapfish/xsd.py: Decimal.pythonvalue, Integer.accept"]}
{"id": "C05", "title": "String facets are enforced exactly", "statement": "A String type with any pattern, enumeration, length, minLength, maxLength and whiteSpace facets accepts a str exactly when its white-space-normalised form satisfies every non-empty (truthy) facet, and then stores that normalised form; any other non-None value raises ValueError.", "quantifier": "all strings, all facet combinations", "why_tests_cant": "facets can be combined in any way and strings are unbounded; interactions, such as white space with lengths, show only for particular combinations", "anchors": ["soapfish/xsd.py: String.accept, String._clean_whitespace"]}
{"id": "C06", "title": "Accepting a value is idempotent", "statement": "Re-assigning to a field the value that the field already holds always succeeds and leaves it unchanged: for every simple type (except a decimal.Decimal assigned to a numeric type), accept(accept(v)) = accept(v).", "quantifier": "all simple types with all facets, all values", "why_tests_cant": "infinite values and facets; a facet checked before normalisation breaks it only for some inputs", "anchors": ["soapfish/xsd.py: String.accept, Boolean.accept, Date.accept, DateTime.accept, Time.accept, Decimal.accept, Integer.accept, MaxOccurs.accept"]}
{"id": "C07", "title": "White-space facet normal forms", "statement": "whiteSpace='replace' turns every white-space character into one space and changes nothing else (same length); 'collapse' additionally merges each run into a single space and never touches non-white characters; 'preserve' or unset changes nothing. Leading and trailing white space is not removed.", "quantifier": "all strings", "why_tests_cant": "the claim is about arbitrary Unicode text with any mixture and number of white-space characters", "anchors": ["soapfish/xsd.py: String._clean_whitespace"]}
{"id": "C08", "title": "Pattern facets match the whole value", "statement": "A String accepted under pattern p is, as a whole, in the language of p, provided p has no top-level alternation and the value has no trailing newline; with a top-level alternation only the last alternative is anchored at the end, so the earlier alternatives accept any value that merely starts with a match.", "quantifier": "all patterns of the regular-expression fragment, all strings", "why_tests_cant": "it quantifies over patterns as well as over texts; a pattern that matches a prefix only differs from a correct one on texts no test may contain", "anchors": ["soapfish/xsd.py: String.accept"]}
{"id": "C09", "title": "Boolean values", "statement": "A Boolean field stores True, False or None; True/False are written 'true'/'false' and read back unchanged; every text other than 'true', 'false', 'nil' raises ValueError; ints and floats equal to 0 or 1 pass assignment but make rendering raise ValueError.", "quantifier": "all Python values and all strings", "why_tests_cant": "the domain is all Python values and all strings; tests try the four valid texts and some invalid ones", "anchors": ["soapfish/xsd.py: Boolean"]}
{"id": "C10", "title": "Date round trip", "statement": "Every date that a Date field can hold with a year of at least 1000 and with no time zone, or with a whole-minute UTC offset (|offset| < 24h), is written as text which parses back to an equal date.", "quantifier": "all calendar dates 1000-01-01..9999-12-31 with all whole-minute offsets", "why_tests_cant": "3.2 million dates times 2879 offsets; tests round-trip a few dates", "anchors": ["soapfish/xsd.py: Date.xmlvalue, Date.pythonvalue", "soapfish/xsd_types.py: XSDDate", "soapfish/utils.py: timezone_offset_to_string"]}
{"id": "C11", "title": "Date text is never silently misread", "statement": "Parsing any text as a Date either returns a real calendar date whose year, month, day and offset are the ones spelled in the text, or raises. Exceptions to this are exactly: a leading '-' (BC) is silently dropped, one trailing newline is ignored, offset minutes above 59 are taken as written, and an offset without minutes raises TypeError instead of ValueError.", "quantifier": "all strings", "why_tests_cant": "malformed dates cannot be enumerated; a single misread text would go unnoticed by tests of valid dates", "anchors": ["soapfish/xsd.py: Date.YEAR_MONTH_DAY_REGEX, Date.pythonvalue, Date._parse_tz"]}
{"id": "C12", "title": "Early years do not survive rendering", "statement": "A Date with a year below 1000 is accepted but is written with fewer than four year digits, and that text can never be parsed back by the same type.", "quantifier": "all dates with year 1..999", "why_tests_cant": "the defect concerns a range of years no test samples; that it affects every date of the range is a universal statement", "anchors": ["soapfish/xsd.py: Date.xmlvalue, Date.pythonvalue"]}
{"id": "C13", "title": "Time-zone offset text", "statement": "The offset text always has the form sign, hours, ':', two-digit minutes; it denotes the offset, first floored to whole seconds, truncated towards zero to whole minutes, hence exactly the offset when it is a whole number of minutes, and different whole-minute offsets get different texts.", "quantifier": "all time deltas", "why_tests_cant": "time deltas are unbounded, and signs, whole hours and odd minutes interact", "anchors": ["soapfish/utils.py: timezone_offset_to_string"]}
{"id": "C14", "title": "DateTime and Time round trip", "statement": "Every DateTime/Time value without microseconds, with a year of at least 1000 and an explicit whole-minute offset is written as text which parses back to the same instant with the same offset; a value without offset comes back with the parser's default offset (UTC).", "quantifier": "all date-times/times, relative to a stated specification of the iso8601 library on canonical texts", "why_tests_cant": "the value space (dates, times, fractions, offsets) is far too large to enumerate; tests round-trip some values", "anchors": ["soapfish/xsd.py: DateTime, Time", "soapfish/utils.py: timezone_offset_to_string"]}
{"id": "C15", "title": "Decimal facets are enforced", "statement": "A finite int or float accepted by a Decimal/Double/Float type with finite bounds satisfies every enumeration and min/max bound given to the constructor, its text satisfies the pattern, has exactly fractionDigits digits after the point and at most totalDigits characters other than the point; a value violating one of these raises ValueError. NaN is never rejected by a bound.", "quantifier": "all facet combinations, all finite numbers", "why_tests_cant": "facets can be combined in any way over infinitely many numbers", "anchors": ["soapfish/xsd.py: Decimal._check_restrictions, Decimal.accept"]}
{"id": "C16", "title": "Decimal text round trip", "statement": "Every float stored in a Decimal field, under any facets, renders to text that parses back to the same float; every int stored under enumeration and bounds renders to text that parses to a numerically equal value. Under fractionDigits=0 no int survives: its text is read as a float whose own text has a fraction digit, so parsing raises ValueError.", "quantifier": "all ints and all floats of at most 15 significant digits", "why_tests_cant": "numbers of any length; formatting changes form with magnitude, so samples say little about the rest", "anchors": ["soapfish/xsd.py: Decimal.xmlvalue, Decimal.pythonvalue"]}
{"id": "C17", "title": "maxOccurs values round trip", "statement": "A MaxOccurs value (unbounded or an int) renders to text that parses back to the same value, and text other than 'unbounded' or an integer raises ValueError.", "quantifier": "all ints and unbounded, all strings", "why_tests_cant": "all ints and all strings; tests try a few bounds and 'unbounded'", "anchors": ["soapfish/xsd.py: MaxOccurs"]}
{"id": "C18", "title": "Fields only ever hold accepted values", "statement": "After any sequence of construction, attribute assignments (successful or failing), every Element or Attribute field of an instance holds None, NIL (only if nillable) or a value its declared type accepts unchanged; a failing assignment leaves every field of the instance as it was.", "quantifier": "all classes, all histories of assignments of arbitrary values", "why_tests_cant": "the claim is an invariant over all histories of assignments to all classes, not about single assignments", "anchors": ["soapfish/xsd.py: ComplexType.__new__, ComplexType.__setattr__, Element.accept"]}
{"id": "C19", "title": "Bounded lists over append histories", "statement": "After any sequence of append calls on the list of a ListElement (including failing ones), the list holds at most maxOccurs items, every item is NIL (only if nillable) or a value the item type accepts unchanged, and the items are the successfully appended ones in call order; a failing append changes nothing.", "quantifier": "all append histories, all bounds, all values", "why_tests_cant": "the claim is an invariant over all sequences of appends, with any bounds and values", "anchors": ["soapfish/xsd.py: TypedList.append, ListElement.empty_value"]}
{"id": "C20", "title": "Undeclared attributes cannot be set", "statement": "Assigning (or passing to the constructor) a name the class does not declare raises and leaves the instance unchanged, so the set of attribute names of an instance is always exactly the declared fields.", "quantifier": "all classes, all names, all histories", "why_tests_cant": "it must hold for every name that is not a field, in every class, after every history", "anchors": ["soapfish/xsd.py: ComplexType.__setattr__, ComplexType._find_field, ComplexType.__init__"]}
{"id": "C21", "title": "Occurrence limits are enforced when rendering", "statement": "Rendering an instance succeeds only if every list field respects its (non-zero) minOccurs and maxOccurs - however the list got its content - and then emits exactly one child element per list item.", "quantifier": "all classes, all instances", "why_tests_cant": "lists can be filled by routes that bypass append", "anchors": ["soapfish/xsd.py: ListElement.render"]}
{"id": "C22", "title": "Required attributes", "statement": "Rendering an instance in which a required attribute is None raises ValueError, and an optional attribute that is None is omitted; a successfully rendered element carries every required attribute.", "quantifier": "all classes, all instances", "why_tests_cant": "it quantifies over all classes and all ways in which instances may lack attributes", "anchors": ["soapfish/xsd.py: Attribute.render"]}
{"id": "C23", "title": "Children are rendered in declaration order", "statement": "The child elements of a rendered instance appear in the order in which the fields were declared (base-class fields at their creation position), list items in list order, with absent (None) fields contributing nothing; attributes never contribute children.", "quantifier": "all classes, all instances", "why_tests_cant": "the number of fields, of base classes and of nested instances is unbounded", "anchors": ["soapfish/xsd.py: ComplexType.render, ComplexTypeMetaInfo"]}
{"id": "C24", "title": "NIL semantics", "statement": "NIL can be stored only in nillable fields and, by append, only in nillable lists (assigning a whole Python list to a list field is the one route that is not checked); it renders as an empty element carrying xsi:nil='true' and parses back to NIL; a None field renders as nothing.", "quantifier": "all classes, all field positions", "why_tests_cant": "it must hold for every position of a field in every class, alone and in lists", "anchors": ["soapfish/xsd.py: Element.accept, Element.render, Element.parse, TypedList.append, ListElement.render, ListElement.parse"]}
{"id": "C25", "title": "Complex type round trip", "statement": "For every class whose child names are unambiguous, rendering an instance and parsing the result with the same class gives an instance with the same field values, recursively, where simple values are those whose text round-trips.", "quantifier": "all class tables (any nesting, recursion, lists, attributes), all instances, any nesting depth", "why_tests_cant": "tables of classes may be nested and recursive in any way; tests round-trip instances of some classes", "anchors": ["soapfish/xsd.py: ComplexType.render, ComplexType.parse_xmlelement, Element.render, Element.parse, ListElement.*, Attribute.*"]}
{"id": "C26", "title": "Namespace qualification of rendered children", "statement": "A child element is namespace-qualified exactly when the element form is 'qualified' and a namespace is known, and the namespace is the field's own one if given, else the target namespace of the schema owning the containing class, else the namespace of the enclosing render call.", "quantifier": "all classes, all schemas, all instances", "why_tests_cant": "it depends on the schemas of all classes on the path to an element, at any depth of nesting", "anchors": ["soapfish/xsd.py: Element.render, ListElement.render, ComplexType.render, ComplexType.xml"]}
{"id": "C27", "title": "Parsing ignores namespaces", "statement": "Changing or removing the namespaces of child elements anywhere in a document never changes the parsed field values.", "quantifier": "all documents, all classes", "why_tests_cant": "documents may use any namespaces at any depth; tests have documents with the expected ones", "anchors": ["soapfish/xsd.py: ComplexType._is_matching_element, ComplexType.parse_xmlelement"]}
{"id": "C28", "title": "Parsing ignores comments and unknown elements", "statement": "Inserting or deleting comments or elements whose local names match no field, at any position, does not change the parsed field values; a processing instruction among the children of an element, in contrast, makes parsing fail.", "quantifier": "all documents, all classes", "why_tests_cant": "anything may be inserted anywhere in a document of any size", "anchors": ["soapfish/xsd.py: ComplexType._find_subelement, ComplexType._is_matching_element"]}
{"id": "C29", "title": "Repeated elements", "statement": "If an element of a single-valued field occurs several times in a document the last occurrence wins (provided the earlier ones are themselves parseable); occurrences of a list field are collected in document order; reordering children of different fields does not change the result.", "quantifier": "all documents, all classes", "why_tests_cant": "documents may repeat elements any number of times, mixed with any others", "anchors": ["soapfish/xsd.py: ComplexType.parse_xmlelement, Element.parse, ListElement.parse"]}
{"id": "C30", "title": "Attributes with a different tag name", "statement": "An attribute is written under its tagname but read back under its field name, so an attribute with a tagname different from its field name never survives a round trip (its value is replaced by the default), while all others do.", "quantifier": "all classes, all values", "why_tests_cant": "the claim is about all classes with such attributes and all values; the round trip fails without an error", "anchors": ["soapfish/xsd.py: Attribute.render, Attribute.parse, ComplexType.render"]}
{"id": "C31", "title": "Choice parsing", "statement": "For a class with INDICATOR Choice, parsing an element sets only the first declared field whose name or tagname equals the element's own local name, leaves all other fields at their empty values, and never looks at the element's children for other fields.", "quantifier": "all choice classes, all documents", "why_tests_cant": "documents and alternatives are unbounded; which alternative is taken depends on all of the fields before it", "anchors": ["soapfish/xsd.py: ComplexType.parse_xmlelement"]}
{"id": "C32", "title": "Defaults", "statement": "A field whose element is missing from the document has its declared default after parsing; a missing attribute has the default as converted from text.", "quantifier": "all classes, all documents", "why_tests_cant": "any subset of the fields may be missing from a document of any size", "anchors": ["soapfish/xsd.py: Element.empty_value, Attribute.parse, ComplexType.__new__"]}
{"id": "C33", "title": "Parsing enforces the declared types", "statement": "Whatever document is parsed, the outcome is an exception or an instance all of whose fields (recursively) hold values the declared types accept and whose lists respect maxOccurs.", "quantifier": "all documents, all classes", "why_tests_cant": "documents come from outside; a test cannot try all that violate a declared type somewhere", "anchors": ["soapfish/xsd.py: ComplexType.parse_xmlelement, Element.parse, ListElement.parse, TypedList.append"]}
{"id": "C34", "title": "Equality, hashing and ordering of instances", "statement": "On instances obtained by parsing, == is an equivalence, equal instances have equal hashes, and < is a strict total order compatible with ==; an instance built in Python is not equal to anything, including itself.", "quantifier": "all pairs and triples of instances", "why_tests_cant": "equivalence and order are statements about all pairs and triples of instances", "anchors": ["soapfish/xsd.py: ComplexType.__eq__, ComplexType.__hash__, ComplexType.__lt__"]}
{"id": "C35", "title": "Instances do not share mutable state", "statement": "Mutating one instance (assigning fields, appending to its lists) never changes any other separately constructed instance. This holds when groups (the classes of Ref fields) have no ListElement and no Ref; it fails for a Ref to a group containing a ListElement, whose list is shared by all instances.", "quantifier": "all classes, all histories over any number of instances", "why_tests_cant": "aliasing shows only in particular histories", "anchors": ["soapfish/xsd.py: ComplexType.__new__, ListElement.empty_value, Ref.empty_value"]}
{"id": "C36", "title": "Class metadata", "statement": "For every class the field list is a permutation of the declared and inherited descriptors, each exactly once, sorted by creation order, split into attributes, groups and fields.", "quantifier": "all class definitions", "why_tests_cant": "classes may have any number of fields and of base classes, in any order of declaration", "anchors": ["soapfish/xsd.py: ComplexTypeMetaInfo"]}
{"id": "C37", "title": "Request routing", "statement": "A GET request whose query has a wsdl or singleWsdl key gets the WSDL, a GET with an xsd key gets a schema, a POST is a SOAP call, and everything else gets the 'bad request' answer; no SOAP method runs for anything but POST.", "quantifier": "all requests", "why_tests_cant": "requests have any method, path and query; tests send a few", "anchors": ["soapfish/soap_dispatch.py: SOAPDispatcher.dispatch"]}
{"id": "C38", "title": "Handler selection by SOAP action", "statement": "If the request carries a non-empty SOAP action, the function of the first method with exactly that action is called, whatever the body's root tag; if there is none the client gets a Client fault and no method runs.", "quantifier": "all services, all requests", "why_tests_cant": "services may have any number of methods whose actions overlap or are missing", "anchors": ["soapfish/soap_dispatch.py: SOAPDispatcher._find_handler_for_request"]}
{"id": "C39", "title": "Handler selection by root tag", "statement": "Without a SOAP action the first method whose input equals the local name of the body's first element is called, else the first whose input equals the substitution group head of the schema element with that name; if no schema declares that name, or the head is no method's input, a Client fault is returned and no method runs. (An element that is declared without a substitution group and is no method's input makes the dispatcher fail with AttributeError, again without running a method.)", "quantifier": "all services, all requests", "why_tests_cant": "services may have any number of methods, and schemas may import one another in any way", "anchors": ["soapfish/soap_dispatch.py: SOAPDispatcher._find_handler_for_request"]}
{"id": "C40", "title": "No method runs on unvalidated input", "statement": "However middlewares behave (calling the next step any number of times, swapping the request, swallowing errors), every invocation of a user method is preceded by successful parsing and validation of exactly the content it is invoked with.", "quantifier": "all middleware stacks, all requests, all services", "why_tests_cant": "adversarial middleware behaviours are unbounded", "anchors": ["soapfish/soap_dispatch.py: call_method, SOAPDispatcher._prepare_request, SOAPDispatcher._validate_input"]}
{"id": "C41", "title": "Middleware nesting", "statement": "Middlewares run in list order around the method: the first is outermost, and each one's next step is exactly the stack of the remaining ones; pass-through middlewares have no effect; a middleware that does not call next prevents everything after it.", "quantifier": "all middleware lists", "why_tests_cant": "lists of any length", "anchors": ["soapfish/soap_dispatch.py: SOAPDispatcher.middleware"]}
{"id": "C42", "title": "SOAP errors become faults", "statement": "A SOAPError raised or returned anywhere inside the middleware chain or the method yields an HTTP response with status 500 whose body is a fault envelope with that code and message, provided both consist of characters XML allows; otherwise building the fault raises ValueError.", "quantifier": "all services, middlewares, errors", "why_tests_cant": "errors may be raised at any depth of any stack of middlewares, with any code and text", "anchors": ["soapfish/soap_dispatch.py: SOAPDispatcher.handle_soap_request"]}
{"id": "C43", "title": "Other exceptions are not disguised", "statement": "An exception that is not a SOAPError and is not handled by a middleware propagates out of dispatch unchanged.", "quantifier": "all services, middlewares, exceptions", "why_tests_cant": "exceptions of any class may be raised at any depth of any stack of middlewares", "anchors": ["soapfish/soap_dispatch.py: SOAPDispatcher.handle_soap_request"]}
{"id": "C44", "title": "ExceptionToSoapFault and ExceptionLogger", "statement": "With ExceptionToSoapFault as outermost middleware no exception of the inner middlewares or the method leaves the chain: SOAPErrors are passed on unchanged, any other becomes a server fault; ExceptionLogger re-raises the same exception and returns the same result, logging exactly the exceptions of the configured classes.", "quantifier": "all inner stacks", "why_tests_cant": "the inner stack may be of any length and do anything, including raising any exception", "anchors": ["soapfish/middlewares.py: ExceptionToSoapFault, ExceptionLogger"]}
{"id": "C45", "title": "HTTP status and content type", "statement": "Every answer to a SOAP call has the SOAP version's content type; its status is 500 if it is a fault and otherwise the status of the response object; status codes given to the response constructor are ignored, so 'bad request' and 'not found' answers are sent with status 200.", "quantifier": "all requests", "why_tests_cant": "it must hold for every request and every outcome, faults and exceptions included", "anchors": ["soapfish/soap_dispatch.py: SOAPDispatcher.handle_soap_request, SOAPDispatcher.dispatch", "soapfish/core.py: SOAPResponse"]}
{"id": "C46", "title": "Hooks", "statement": "Each hook runs at most once per request, request hooks before any method and response hooks after; a hook returning the wrong kind of object raises TypeError; without hooks the answer is unchanged; the xsd-response hook is never called (wsdl-response is used instead).", "quantifier": "all requests, all hook tables", "why_tests_cant": "hooks may be present in any combination and may do anything to the request; order matters only for particular ones", "anchors": ["soapfish/soap_dispatch.py: SOAPDispatcher._call_hook, SOAPDispatcher.__init__"]}
{"id": "C47", "title": "WSDL placeholder substitution", "statement": "The served WSDL is the stored one with every ${scheme}, $scheme, ${host}, $host replaced, '$$' collapsed to '$' and everything else untouched; text without '$' is served byte for byte; without a Host header nothing is replaced.", "quantifier": "all WSDL texts, schemes and hosts", "why_tests_cant": "placeholders may occur anywhere and any number of times in texts of any length, next to any other braces", "anchors": ["soapfish/soap_dispatch.py: SOAPDispatcher.handle_wsdl_request"]}
{"id": "C48", "title": "XSD lookup", "statement": "GET ?xsd=name serves the schema registered under that name (empty name means 'xsd'), and answers 'not found' exactly when no such schema is registered.", "quantifier": "all queries, all schema tables", "why_tests_cant": "queries and tables of schemas are unbounded; collisions need particular names", "anchors": ["soapfish/soap_dispatch.py: SOAPDispatcher.handle_xsd_request"]}
{"id": "C49", "title": "SOAP header validation", "statement": "In strict mode a header element that fails validation rejects the request with a Client fault before any method runs; in non-strict mode validation failures of header elements outside the WS-Addressing namespace never reject a request, those inside it always do.", "quantifier": "all headers, all validators", "why_tests_cant": "headers are documents of any shape, validators any predicate", "anchors": ["soapfish/soap_dispatch.py: SOAPDispatcher._validate_header"]}
{"id": "C50", "title": "SOAP action header round trip", "statement": "The action a client puts into the HTTP request headers for a method is recovered unchanged by the server: SOAP 1.1 for every action without double quotes (non-empty, when the server sees the header as SOAPACTION or, under Django, HTTP_SOAPACTION; a plain WSGI environment never has it under that name), SOAP 1.2 for every action without double quotes and backslashes.", "quantifier": "all action strings", "why_tests_cant": "actions are arbitrary strings, with quotes and white space at either end", "anchors": ["soapfish/soap11.py: determine_soap_action, build_http_request_headers", "soapfish/soap12.py: determine_soap_action, build_http_request_headers"]}
{"id": "C51", "title": "Fault round trip", "statement": "A fault envelope built from code, message and actor parses back to the same code, message and actor, for SOAP 1.1 and 1.2 (empty strings come back as None).", "quantifier": "all strings", "why_tests_cant": "codes, texts and details are arbitrary strings", "anchors": ["soapfish/soap11.py: Envelope.error_response, parse_fault_message", "soapfish/soap12.py: Envelope.error_response, parse_fault_message"]}
{"id": "C52", "title": "End-to-end call", "statement": "For a service with unambiguous classes, the parameter object passed to Stub.call reaches the method with equal field values and the object the method returns reaches the caller with equal field values.", "quantifier": "all services, parameters, results", "why_tests_cant": "composition over unbounded values", "anchors": ["soapfish/soap.py: Stub.call, Stub._handle_response", "soapfish/soap_dispatch.py: SOAPDispatcher.handle_soap_request"]}
{"id": "C53", "title": "End-to-end fault", "statement": "If the method raises SOAPError(code, message, actor), Stub.call raises a SOAPError with the same code and message; the actor is lost.", "quantifier": "all errors", "why_tests_cant": "an error's texts are arbitrary and pass through rendering, transport and parsing; tests try a few", "anchors": ["soapfish/soap.py: Stub._handle_response", "soapfish/soap_dispatch.py: SOAPDispatcher.handle_soap_request"]}
{"id": "C54", "title": "Header objects", "statement": "Header fields sent by a client are read back equal on the server; header children without an explicit field namespace are sent in the SOAP envelope namespace, not in the header class's own schema namespace.", "quantifier": "all header classes and instances", "why_tests_cant": "header classes and their instances are unbounded", "anchors": ["soapfish/soap11.py: Header.render, Header.parse_as, Envelope.response"]}
{"id": "C55", "title": "Django environment lookup", "statement": "The Django adapter resolves a name to the environment entry with dashes replaced and upper-cased, else to the same with an HTTP_ prefix, else to the default; consequently a lower-case key such as wsgi.url_scheme can never be found.", "quantifier": "all environments and names", "why_tests_cant": "the environment may have any keys and any values; precedence shows only when several keys compete", "anchors": ["soapfish/django_.py: DjangoEnvironWrapper.get"]}
{"id": "C56", "title": "WSGI body reading", "statement": "The WSGI adapter reads at most CONTENT_LENGTH bytes (0 when missing or empty; everything when negative) and hands exactly these to the dispatcher, so whatever follows the announced length has no effect; a length that is not an integer raises ValueError before anything else happens.", "quantifier": "all environments and bodies", "why_tests_cant": "lengths and bodies are unbounded and need not agree", "anchors": ["soapfish/soap_dispatch.py: WsgiSoapApplication.__call__"]}
{"id": "C57", "title": "Schema tree walk", "statement": "Walking imports and includes terminates on every schema graph, including cyclic ones, visits every location at most once, and - when locations identify schemas - visits exactly the schemas reachable from the roots by at least one import or include.", "quantifier": "all finite schema graphs", "why_tests_cant": "cyclic graphs of any size", "anchors": ["soapfish/utils.py: walk_schema_tree"]}
{"id": "C58", "title": "Element lookup across schemas", "statement": "Looking up an element name returns the element of the first schema, in depth-first order over imports then includes, that declares it, and None when no reachable schema declares it, provided the import graph is acyclic; on a cyclic graph looking up an undeclared name exhausts the stack.", "quantifier": "all schema graphs, all names", "why_tests_cant": "graphs of any size", "anchors": ["soapfish/xsd.py: Schema.get_element_by_name", "soapfish/soap.py: Service.find_element_by_name"]}
{"id": "C59", "title": "Method lookup and routing decorator", "statement": "get_method returns the first method with the given operation name; route(name)(f) makes f the function of exactly that method and changes no other.", "quantifier": "all services and names", "why_tests_cant": "services may have any number of methods, several with the same name", "anchors": ["soapfish/soap.py: Service.get_method, Service.route"]}
{"id": "C60", "title": "SOAP version selection", "statement": "A namespace selects SOAP 1.1 or 1.2 exactly when it is that version's envelope or binding namespace; every other namespace raises ValueError.", "quantifier": "all strings", "why_tests_cant": "any text may be asked for; the claim says which are rejected as well", "anchors": ["soapfish/soap.py: SOAPVersion.get_version"]}
{"id": "C61", "title": "Generated WSDL is self-consistent", "statement": "In every generated WSDL, each reference (port to binding, binding to port type, port-type operation to input/output message) resolves, by the library's own reader, to the item generated for it, provided operation names are distinct and neither they nor the service name contain ':'; each method contributes exactly one binding operation, with its SOAP action and style, whose messages carry exactly the method's input and output. Of two methods with the same name the second gets the messages of the first; an operation with ':' in its name is not found.", "quantifier": "all services", "why_tests_cant": "method lists of any length", "anchors": ["soapfish/py2wsdl.py: generate_wsdl, build_service, build_bindings, build_portTypes, build_messages, build_types", "soapfish/wsdl.py: get_by_name, get_message_object"]}
{"id": "C62", "title": "Rendered documents satisfy the generated schema", "statement": "The children of a rendered instance satisfy the occurrence constraints and order of the sequence that XSD generation emits for the class, provided single fields with minOccurs=1 are set and list fields declare explicit bounds; a list field without explicit bounds is emitted with XSD defaults (exactly one), so empty or longer lists violate the generated schema.", "quantifier": "all classes and instances", "why_tests_cant": "classes and instances of any nesting; tests validate some documents", "anchors": ["soapfish/py2xsd.py: xsd_complexType, create_xsd_element", "soapfish/xsd.py: ComplexType.render"]}
{"id": "C63", "title": "Built-in types are referenced in the XSD namespace", "statement": "A built-in simple type is referred to as 'xsd:' plus its XSD name, except exactly NonNegativeInteger, NonPositiveInteger, NegativeInteger, PositiveInteger, NMTOKEN and NMTOKENS, which get the prefix 'sns:' of the schema itself, and MaxOccurs and List, whose names are not XSD names. Complex types and user classes deriving from another type class get 'sns:'; a user class deriving directly from SimpleType gets 'xsd:'.", "quantifier": "all built-in types and all user-defined subclasses", "why_tests_cant": "user subclasses are unbounded", "anchors": ["soapfish/py2xsd.py: get_xsd_type"]}
{"id": "C64", "title": "Facets survive XSD generation", "statement": "The restriction generated for a field declared with a type object has exactly these children: one element with the value for each bound, digit or pattern facet that is not None, zero, False or empty (these are dropped), and one for each value of the enumeration if the class of the type object derives directly from SimpleType (else enumerations are dropped). Length facets and white space are never written.", "quantifier": "all schemas and facet combinations", "why_tests_cant": "all combinations of facets, at every place of a schema", "anchors": ["soapfish/py2xsd.py: create_xsd_element, xsd_simpleType"]}
{"id": "C65", "title": "Schemas with attributes cannot be generated", "statement": "Generating the XSD of any schema containing a complex type with an Attribute raises ValueError, because the generated attribute description lacks the required 'ref'.", "quantifier": "all schemas", "why_tests_cant": "the claim is that no schema with attributes works, whatever else it has; one failing test would not show that", "anchors": ["soapfish/py2xsd.py: xsd_attribute", "soapfish/xsdspec.py: Attribute"]}
{"id": "C66", "title": "Order of the schemas of a WSDL document", "statement": "Reordering schemas for code generation ends for every input (including circular imports) and gives the same schemas in some order; schemas that already come after those they import stay in place; every schema comes after the schemas it imports that import nothing themselves. Deeper imports may come out of order: of a schema importing a second one importing a third, in this order, the first comes out before the second.", "quantifier": "all schema lists", "why_tests_cant": "cyclic/long inputs", "anchors": ["soapfish/wsdl2py.py: reorder_schemas"]}
{"id": "C67", "title": "Location resolution", "statement": "Resolving a location that is not a URL against a directory gives an absolute path of the file it stands for there, the directory of that file, and an identification that is relative, stands for the same file, and is equal for two locations exactly when they stand for the same file, however they are written. A URL (containing '://') is passed through unchanged.", "quantifier": "all paths", "why_tests_cant": "paths and locations are arbitrary strings; tests try some shapes", "anchors": ["soapfish/utils.py: resolve_location"]}
{"id": "C68", "title": "Name helpers", "statement": "remove_namespace returns the part after the last colon; uncapitalize lowers only the first character, leaves 'QName' alone and is idempotent; keyword-named fields get a leading underscore and no other name changes, so generated field names are never keywords and two fields clash exactly when one is a keyword and the other that keyword with an underscore.", "quantifier": "all strings", "why_tests_cant": "names are arbitrary strings, with any number of colons and any characters", "anchors": ["soapfish/utils.py: remove_namespace, uncapitalize, get_rendering_environment"]}
{"id": "C69", "title": "Client endpoint location", "statement": "A stub's endpoint is the service location with ${scheme} and ${host} substituted, unless an explicit location string or callable is given, in which case it is exactly that string or the callable's result.", "quantifier": "all templates, all locations", "why_tests_cant": "templates and locations are arbitrary strings", "anchors": ["soapfish/soap.py: Stub.__init__"]}
{"id": "C70", "title": "WS-Addressing reply headers", "statement": "Filling a reply header from a request header sets RelatesTo to the request's MessageID and Action to the request's Action plus 'Response', MessageID to a fresh identifier and To to the anonymous address, and touches no other field; without a request header only MessageID and To are set; a request header without an Action is a TypeError. The header class of the library is written with one element of the WS-Addressing namespace for each field that is set, in order, and the address to reply to inside ReplyTo.", "quantifier": "all headers", "why_tests_cant": "header texts are arbitrary strings, and any of the headers may be missing", "anchors": ["soapfish/wsa.py: fill_header"]}
{"id": "C71", "title": "Percent-encoded query strings", "statement": "Whatever mixture of plain characters, '+' for blanks and percent escapes of UTF-8 (in either case of hex digits) a client uses to write a schema name in the query string, the dispatcher decodes it to exactly that name, so an imported schema is served under every encoding of its name.", "quantifier": "all names, all their encodings", "why_tests_cant": "infinite strings, exponentially many encodings", "anchors": ["soapfish/soap_dispatch.py: SOAPDispatcher.handle_xsd_request, SOAPRequest query parsing"]}
{"id": "C72", "title": "Adapters deliver the dispatcher's answer", "statement": "Through WSGI, Django and Flask the dispatcher sees a fresh request with the environment and body, and its answer is delivered unchanged: WSGI gets the status line ('200 OK', '500 Internal Server Error' for faults, ...), the headers and the content as one chunk; a framework response has the status and content, and each header of the answer exactly once, replacing the framework's own of that name in any spelling, while its other headers stay. Requests that are neither calls nor ask for a document are answered '200 OK' with a text (not bytes) chunk.", "quantifier": "all requests, answers and framework headers", "why_tests_cant": "requests, answers and headers of frameworks are unbounded; tests drive one adapter with some of them", "anchors": ["soapfish/soap_dispatch.py: WsgiSoapApplication", "soapfish/django_.py: django_dispatcher", "soapfish/flask_.py: flask_dispatcher", "soapfish/core.py: SOAPResponse.http_status_text"]}
{"id": "C73", "title": "Type references in generated code", "statement": "A type reference becomes xsd.Name when its prefix (or the default namespace) stands for XML Schema, the bare name when the class has been generated already and a lazy reference otherwise, with the first letter capitalised; an element's ref wins over its type; several colons or nothing to refer to are a ValueError, an embedded simple type a NotImplementedError; types with the same name in different user namespaces get the same code.", "quantifier": "all references, prefixes and known types", "why_tests_cant": "prefixes, names and lists of known types are unbounded; a collision needs particular names", "anchors": ["soapfish/utils.py: get_rendering_environment (get_type, capitalize)"]}
{"id": "C74", "title": "Rewriting of schema locations", "statement": "Rewriting the locations of an XSD document relative to a base directory keeps missing locations and URLs, and turns every other one into a location that stands for the same file seen from the base directory. Two documents in different directories get the same rewritten location exactly when they refer to the same file, and resolving a rewritten location identifies the file by exactly the rewritten text.", "quantifier": "all directories and locations", "why_tests_cant": "directories and locations are arbitrary strings", "anchors": ["soapfish/xsd2py.py: rewrite_paths, resolve_import", "soapfish/utils.py: resolve_location"]}
{"id": "C75", "title": "Merging of imported WSDL documents", "statement": "For documents of one directory that import each other by name, possibly in circles, merging imports ends, reads every reachable document once and gives, of every kind (schemas, services, bindings, messages, port types), exactly what the root and the reachable documents have, without repetitions. In general, a successful merge contains nothing but what the root document and the opened documents have.", "quantifier": "all import graphs", "why_tests_cant": "cyclic graphs of any size", "anchors": ["soapfish/wsdl2py.py: merge_imports"]}
{"id": "C76", "title": "WSDL imports across directories", "statement": "Imports in other directories are not resolved faithfully: after importing a document of another directory the next import is looked for in that directory; and two documents in different directories that import each other are merged without end (RecursionError for every recursion limit).", "quantifier": "all directories, all recursion limits", "why_tests_cant": "a test cannot observe that a recursion never ends for any limit", "anchors": ["soapfish/wsdl2py.py: merge_imports", "soapfish/utils.py: resolve_location"]}
{"id": "C77", "title": "Order of complex types", "statement": "In generated code every complex type comes after the type it is derived from, whatever the depth of derivation and the order of the document, if bases are named without prefix; types that are not derived keep their order. With prefixed bases, types that are not derived come first and derived ones follow in document order, so that a type may precede the derived type it is based on. A base that is not in the schema is a KeyError; a complexContent with neither extension nor restriction reads an unbound variable.", "quantifier": "all lists of types, all inheritance forests", "why_tests_cant": "chains of inheritance of any length and any order of the document", "anchors": ["soapfish/xsd2py.py: _reorder_complexTypes"]}
{"id": "C78", "title": "Included XSD documents", "statement": "For XSD documents in any directories that include or import each other, possibly in circles, code generation ends and produces the code of every reachable document exactly once, followed by that of the root document; a document's code comes after that of the documents it includes unless they include it in turn. A root document that is reached from its own includes is generated twice.", "quantifier": "all include graphs", "why_tests_cant": "cyclic graphs of any size", "anchors": ["soapfish/xsd2py.py: generate_code_from_xsd, schema_to_py, resolve_import, rewrite_paths", "soapfish/templates/xsd.jinja2"]}
{"id": "C79", "title": "The generated XSD document", "statement": "Generating the XSD of a schema either raises an exception or gives exactly the document described by the schema: imports, includes, simple types, complex types and elements in this order, each kind in the order of the schema, each with the attributes and children of its description. It succeeds exactly if classes have names, enumeration values are texts, simple types have no numeric fractionDigits, includes have a location, no complex type has attributes, top-level elements are not given a simple type object, and all texts can be written in XML; otherwise it raises ValueError, IndexError or AttributeError, never produces a partial document.", "quantifier": "all schemas", "why_tests_cant": "schemas of any size and nesting; tests compare a few documents", "anchors": ["soapfish/py2xsd.py: generate_xsdspec, generate_xsd", "soapfish/xsdspec.py"]}
{"id": "C80", "title": "References in the generated XSD resolve", "statement": "If every type used in a schema is listed in the schema or is a built-in type with a correct reference, every type and base attribute anywhere in the generated document names a type of XSD or a type defined at the top of the document. A field whose complex type is not listed, for example because it belongs to an imported schema, is declared with a reference into the schema itself that resolves to nothing.", "quantifier": "all schemas", "why_tests_cant": "every reference in every generated document has to resolve, at any depth", "anchors": ["soapfish/py2xsd.py: get_xsd_type, create_xsd_element, xsd_complexType, xsd_simpleType, generate_elements"]}
{"id": "C81", "title": "The generated WSDL document", "statement": "Generating the WSDL of a service either raises an exception or gives exactly the document described by the service: the types with one XSD document per schema, an input and an output message per method, one port type, one binding and one service with one port. It succeeds exactly if every method has an input and an output and a known style, there is at least one schema, all schemas can be generated, there is a location and all texts can be written in XML; otherwise it raises ValueError, IndexError or AttributeError, never produces a partial document.", "quantifier": "all services", "why_tests_cant": "services with any number of methods, schemas and headers; tests compare a few documents", "anchors": ["soapfish/py2wsdl.py: generate_wsdl, build_service, build_bindings, build_portTypes, build_messages, build_types", "soapfish/wsdl11.py", "soapfish/wsdl12.py"]}
{"id": "C82", "title": "Generated documents are read back as they were described", "statement": "An XSD or WSDL document generated by the library, serialised (with or without pretty printing) and read by the library with the corresponding description class, gives a description with the same values in all fields, recursively, as the one it was generated from.", "quantifier": "all schemas and services, both SOAP versions", "why_tests_cant": "the claim composes writing and reading for descriptions of any size, for both SOAP versions", "anchors": ["soapfish/py2xsd.py: generate_xsdspec, generate_xsd", "soapfish/py2wsdl.py: generate_wsdl", "soapfish/xsdspec.py: Schema", "soapfish/wsdl11.py: Definitions", "soapfish/wsdl12.py: Definitions", "soapfish/xsd.py: ComplexType.parse_xmlelement"]}
{"id": "C83", "title": "Order of elements in generated WSDL documents", "statement": "Outside the binding every WSDL element of a generated document has its extension elements before its WSDL elements, as the WSDL 1.1 schema asks. The binding does not: soap:binding comes after the operations, and in each operation soap:operation comes after input and output; so the document violates the schema exactly if the service has a method.", "quantifier": "all services", "why_tests_cant": "the order concerns documents of any number of methods and schemas", "anchors": ["soapfish/py2wsdl.py: build_bindings", "soapfish/wsdl11.py: Binding, Operation", "soapfish/wsdl12.py: Binding, Operation", "soapfish/xsd.py: ComplexTypeMetaInfo"]}
{"id": "C85", "title": "From a schema to XSD, to code, and back", "statement": "Take a schema object, generate its XSD document, serialise and read it, generate Python code from it and import the code: if the schema only uses what survives (built-in or listed types, elements that say whether they must occur, lists that may have several items, plain texts, names that are identifiers and do not collide, no cycle of required or optional elements), nothing fails, and the schema object in the code has the same XSD document as the one at the start. Classes, elements and fields have the names they had, except that keywords get an underscore in front.", "quantifier": "all surviving schemas of any size, any recursion limit above the nesting depth", "why_tests_cant": "the claim composes three generators over schemas of any size", "anchors": ["soapfish/py2xsd.py: generate_xsd", "soapfish/xsd2py.py: schema_to_py", "soapfish/templates/xsd.jinja2", "soapfish/templates/lib.jinja2", "soapfish/xsd.py: Schema.__init__, ComplexTypeMetaInfo, Element, ListElement"]}
{"id": "C84", "title": "Facets in generated code", "statement": "Let Python code be generated from an XSD document and imported. A simple type derived from a text type by any number of restrictions accepts a text exactly if the text matches the pattern of the last restriction that has one and is enumerated in the last restriction that has an enumeration; lengths, whiteSpace and everything further up the chain have no effect, so that a restriction can allow what its base forbids. A simple type derived from a number or date type accepts exactly what the built-in type accepts: none of its restrictions has any effect. A restriction in place of an element of a text type checks all facets; of an integer type it checks exclusive bounds and the number of digits, but inclusive bounds only where the type has none of its own; of a number type with an enumeration it refuses every int, float, bool and text.", "quantifier": "all documents, chains of any length, all facets and values", "why_tests_cant": "facets are inherited along chains of any length; every facet and value has to be considered", "anchors": ["soapfish/xsd2py.py: schema_to_py", "soapfish/templates/lib.jinja2", "soapfish/xsd.py: String, Decimal, Integer, Double, Float"]}
{"id": "C86", "title": "The classes in generated code", "statement": "Python code can only be generated from an XSD document if its complex types have names. Let it be generated and imported. The class of a complex type has exactly one field per attribute and per element with a type, in the order of the document, those of base types that it extends first, under the name (an underscore in front of keywords) and with the tag of the document; an element that may occur more than once becomes a list with the document's bounds, another one an element that is required unless minOccurs is 0; types mean what the document says: the built-in type, the class of the simple type, or the class of the complex type. Instances can be created unless a field has type anyType. create() takes the elements whose minOccurs is 1 or missing, and sets exactly these; but if one of them has a complex type in place, create() raises an exception whatever it is given.", "quantifier": "all documents, all complex types", "why_tests_cant": "documents may have any number of types, with any content", "anchors": ["soapfish/xsd2py.py: schema_to_py", "soapfish/templates/lib.jinja2", "soapfish/xsd.py: ComplexTypeMetaInfo, ComplexType.__init__, ComplexType.__setattr__"]}
{"id": "C87", "title": "Generated code writes valid documents", "statement": "Let Python code be generated from an XSD document and imported. If an instance of the class of a complex type is complete (no required field is None, at any depth; values were accepted by their fields; dates have years from 1000, times whole seconds, offsets at most 14 hours, decimals and floats are ints or floats that are zero or from 0.0001 to below 10^16), its rendering has attributes and children that are valid for the complex type in the document: names, namespaces, order, numbers of occurrences, nil, texts of the types with enumerations and patterns. Nothing enforces completeness: a required element left None is left out without an exception, and an empty list is written for an element whose declaration has no minOccurs, though XSD then asks for one; both results are not valid.", "quantifier": "all documents with complex types over checked types, with extensions of any depth, all complete instances of any depth", "why_tests_cant": "the generated code is different for each document, so that tests reach only the code of their own documents", "anchors": ["soapfish/xsd2py.py: schema_to_py", "soapfish/templates/lib.jinja2", "soapfish/xsd.py: ComplexType.render, Element.render, ListElement.render, Attribute.render, SimpleType.xmlvalue"]}
{"id": "C88", "title": "Generated code reads valid documents and writes them back", "statement": "Let Python code be generated from an XSD document and imported. Every element that is valid for a complex type of the document - with comments and white space between children, attributes in any order - is parsed by the class of the type, and rendering the instance gives an element with the same content: the same attributes, the same children in the same order, the same texts, at any depth. The texts must be of the kinds that are kept: not empty in elements, dates from year 1000, times with an offset, decimals and floats as str() writes floats; and no attribute may be named after a keyword. Both limits are real: an empty required text is valid, is read, and is lost when written, so that the result is not valid any more; an attribute named 'class' is lost.", "quantifier": "all documents with complex types over checked types, with extensions of any depth, all valid elements of any depth and length", "why_tests_cant": "it quantifies over all documents, over the code generated from each, and over all its valid instances", "anchors": ["soapfish/xsd2py.py: schema_to_py", "soapfish/templates/lib.jinja2", "soapfish/xsd.py: ComplexType.parse_xmlelement, ComplexType.render, Element.parse, ListElement.parse, Attribute.parse, SimpleType.pythonvalue"]}
{"id": "C89", "title": "Extension types in generated code", "statement": "In generated code the class of a type that extends another one is a subclass of that type's class and has its fields followed by those the extension adds. An instance can be assigned where the base type is expected. There it is written with all its fields, exactly as where its own type is expected, without xsi:type: the document is not valid for the schema, and reading it gives an instance of the base class with the base's values; the others are lost.", "quantifier": "all documents, extensions of any depth, all instances", "why_tests_cant": "extensions of any depth; the fields of a class depend on the whole chain", "anchors": ["soapfish/xsd2py.py: schema_to_py", "soapfish/templates/lib.jinja2", "soapfish/xsd.py: ComplexType.accept, ComplexType.render, ComplexType.parse_xmlelement"]}
{"id": "C90", "title": "Addresses in generated clients", "statement": "A client generated from a WSDL document sends its requests to the address of the port: the stub's location is the address as it stands in the document, except that a semicolon, question mark or number sign with nothing behind it is dropped. With another scheme and host, only these are replaced. The address must not contain a dollar sign: a path with $host or $$ is changed. For a relative address scheme and host are empty, so that the stub goes to '://' followed by the path; and an address with placeholders, as a generated service has, gets placeholders in front again.", "quantifier": "all http and https addresses with ASCII hosts, any path, parameters, query, fragment", "why_tests_cant": "addresses are arbitrary strings, taken apart and put together again in several places", "anchors": ["soapfish/utils.py: get_rendering_environment, url_template, url_component", "soapfish/templates/wsdl.jinja2", "soapfish/soap.py: Stub.__init__"]}
{"id": "C91", "title": "Services through WSDL and generated code", "statement": "Let the WSDL document of a service be written, read and turned into client or server code, and the code be imported. The result defines one service. It has the target namespace, the version and the methods of the original in their order: operation names, input and output elements, SOAP actions, styles ('document' where none was given); a server attaches the generated function of the operation's name to each method. Only two things differ: the name has 'Port' at its end, and the location has placeholders for scheme and host. The WSDL document of the new service is that of the old one with these two changes. A client stub sends to the address of the original service, and its methods call the operations of their names; but a method named username, password, service or location cannot be called (TypeError), and if any operation is named 'call', none can.", "quantifier": "all services with one schema, elements as inputs and outputs, SOAP actions for all methods, and names that can be names of functions; both versions; any number of methods", "why_tests_cant": "the claim composes writing, reading, generating and importing for services of any size", "anchors": ["soapfish/wsdl2py.py: generate_code_from_wsdl", "soapfish/templates/wsdl.jinja2", "soapfish/py2wsdl.py: generate_wsdl", "soapfish/soap.py: Service.__init__, Stub.__init__, Stub.call"]}
{"id": "C92", "title": "The services in code generated from WSDL documents", "statement": "Let client or server code be generated from any WSDL document and imported without an exception. There is one service for every port whose binding is SOAP over HTTP, in the order of the document; other ports are left out. A service has the port's name, the document's target namespace, the port's address with placeholders for scheme and host, and one method per operation of the binding, in order. A method has the operation's name, SOAP action and style, the element of the only part of the input message, for the output the element or type of the only part (or nothing if there is none), and header classes with the elements of the header parts; a header class belongs to the first schema of the document that declares all elements of the header. The schemas of a service are those of the document, in order, with their namespaces and element names. Exceptions: texts become Python literals without escaping, so backslashes are interpreted; of operations of the same name the last one counts for all; a missing SOAP action becomes the text 'None'; of two schemas whose namespaces have the same digest one object may stand for both; an input header class is overwritten by the output's if the messages have the same name.", "quantifier": "all WSDL documents with any number of services, ports, bindings, operations, messages, headers, schemas for which code can be generated and imported", "why_tests_cant": "WSDL documents refer to their parts by name in any way; tests generate code from a few", "anchors": ["soapfish/wsdl2py.py: generate_code_from_wsdl", "soapfish/templates/wsdl.jinja2", "soapfish/wsdl.py: get_by_name, get_message_object, get_message_header", "soapfish/soap.py: Service.__init__, Stub.__init__, Stub.call"]}
{"id": "C93", "title": "The documents of a dispatcher and their links", "statement": "A dispatcher made without documents of its own serves the WSDL document of the service and one XSD document for each location among the schemas that can be reached by imports and includes. They are the generated documents, in which every import and include has '?xsd=' and the location as its schemaLocation, and there is a served document for every one of these links: the links lead nowhere else and none is dangling. A GET request with what follows the question mark is answered with status 200 and that document, if the location contains no '&', '%' or '+'. Links are not encoded: with a plus sign in the location the request asks for a blank and the answer is 'not found'. A dispatcher can only be made for services with one schema. It can be made if lxml accepts that schema, the documents can be generated and everything imported or included has a non-empty location; if something that the schema refers to has none, the constructor raises.", "quantifier": "all services, all graphs of schemas with imports and includes (cycles included), all requests", "why_tests_cant": "schemas may import and include one another in any way, in cycles too", "anchors": ["soapfish/soap_dispatch.py: SOAPDispatcher.__init__, SOAPDispatcher._rewrite_locations, SOAPDispatcher.handle_xsd_request", "soapfish/py2xsd.py: schema_validator, generate_xsd", "soapfish/py2wsdl.py: generate_wsdl", "soapfish/utils.py: walk_schema_tree"]}
{"id": "C94", "title": "A generated client and a generated server fit together", "statement": "Let client code and server code be generated from the same WSDL document for the same SOAP version, and both be imported without an exception. They define the same services, port by port: names, namespaces, locations, schemas, and methods with the same operations, SOAP actions, inputs, outputs, headers and styles; they differ only in that the server's methods have functions. Two programs that run such services over the same classes make the same calls: whatever is posted and received, a stub call on one gives the same request, the same result and the same exceptions as on the other. Hence a call by the generated client is answered by the generated server: the function is called with the value that was sent, and the client gets the value that the function returned.", "quantifier": "all WSDL documents for which both kinds of code can be generated, all ports, all operations with one element in and out, all values that survive being written and read", "why_tests_cant": "the claim relates two programs generated from the same document, for all documents", "anchors": ["soapfish/wsdl2py.py: generate_code_from_wsdl", "soapfish/templates/wsdl.jinja2", "soapfish/soap.py: Stub.call", "soapfish/soap_dispatch.py: SOAPDispatcher.dispatch"]}
{"id": "C95", "title": "Which requests a dispatcher answers", "statement": "A dispatcher without middlewares and hooks answers every POST request with a response - malformed XML, a missing Body, invalid content, invalid headers, unknown actions and unknown elements included - if the document, when it is one, is ordinary, and the service is sound: valid input can be read, and functions return what can be written or raise SOAPErrors. With the middleware ExceptionToSoapFault it answers every POST request whatever the content is and whatever exceptions functions raise. Without it, documents that any client can send make an exception escape from the dispatcher before any function is called: IndexError for an empty Body, ValueError for a comment as first child of the Body or among the children of the Header and for a Body with xsi:nil, AttributeError for a Header with xsi:nil, TypeError for a processing instruction in the envelope.", "quantifier": "all worlds of services, schemas, methods and functions; all requests; all documents", "why_tests_cant": "which requests are answered depends on services, schemas, methods and documents of any size together", "anchors": ["soapfish/soap_dispatch.py: SOAPDispatcher.dispatch, SOAPDispatcher.handle_soap_request, SOAPDispatcher._prepare_request, SOAPDispatcher._parse_soap_content, SOAPDispatcher._find_handler_for_request, SOAPDispatcher._validate_input, SOAPDispatcher._validate_header", "soapfish/middlewares.py: ExceptionToSoapFault", "soapfish/soap11.py: Body.content", "soapfish/xsd.py: ComplexType.parse_xmlelement"]}
{"id": "C96", "title": "Recursive types", "statement": "A class is recursive if one can go on without end from class to class along fields that are not lists (optional or not). No instance of such a class is ever made, neither by calling it with any arguments nor by parsing any document, whatever Python's recursion limit is; if the initial values of all fields suit their types, calling it raises RecursionError. Among finitely many classes this is the case exactly if some class on the way leads back to itself, and otherwise calling the class works as soon as the recursion limit allows as many nested calls as there are classes on the way. Code generated from an XSD document in which elements that occur at most once lead on without end from complex type to complex type can never be imported, although XSD allows such documents; with lists instead it can.", "quantifier": "all (also infinite) tables of classes, all arguments, all documents, all recursion limits; all XSD documents made of plain complex types and extensions", "why_tests_cant": "a test can show that one class fails under one recursion limit, not that no limit helps nor that loops are the only reason", "anchors": ["soapfish/xsd.py: ComplexType.__new__, Element._evaluate_type, Element.accept, Element.empty_value, Ref.empty_value, Schema._force_elements_type_evalution", "soapfish/templates/lib.jinja2", "soapfish/templates/xsd.jinja2", "soapfish/xsd2py.py: schema_to_py"]}
{"id": "C97", "title": "Which names are taken for types of XML Schema", "statement": "The generators decide by the prefix whether the name of a type in a document is one of XML Schema, with one set of prefixes for the document and everything it imports. A prefix is in the set only if it stands for XML Schema at the root or a schema element of one of the documents. A name is taken for a type of XML Schema exactly if it is one at its place, if its prefix stands for the same wherever it is declared at roots and schema elements, and is declared at one of them if it stands for XML Schema. Otherwise it goes wrong: where a prefix stands for XML Schema at one place and for something else at another one, names with it are mistaken at one of the places, whatever the set is; and a prefix declared further inside only is never taken for XML Schema.", "quantifier": "all collections of documents, all nestings of elements and namespace declarations, all prefixes (the default namespace included), all names", "why_tests_cant": "prefixes may be declared anywhere in any of several documents", "anchors": ["soapfish/utils.py: find_xsd_namespaces, get_type", "soapfish/wsdl2py.py: generate_code_from_wsdl, merge_imports", "soapfish/xsd2py.py: generate_code_from_xsd, resolve_import"]}
{"id": "C98", "title": "What parsing gives does not depend on what happened before", "statement": "In a program that has constructed instances, assigned attributes, appended to and changed lists and parsed documents in any order, with or without exceptions, parsing a document gives what it gives in a fresh program: an instance that holds the same values at every depth, or the same exception. All objects of the instance, lists and instances in it included, are new, and no existing object is changed. The same is true of constructing an instance of a class without groups. It is not true of classes with a group: the group of a new instance shares its lists with a hidden object and so with the groups of all earlier and later instances of the class, and what was appended to one shows up in a newly constructed one.", "quantifier": "all tables of classes, all histories of operations and documents, all documents", "why_tests_cant": "a test shows the absence of interference for one history; the claim is about every history in a long-running server", "anchors": ["soapfish/xsd.py: ComplexType.__new__, ComplexType.parse_xmlelement, Element.parse, ListElement.parse, ListElement.empty_value, Ref.empty_value, TypedList"]}
{"id": "C99", "title": "What a method can rely on about its input", "statement": "If a method is called for a request without SOAP action, every required element of its input class has been read from a child of the message, provided that all elements of the input's local name have one type and members of substitution groups have the fields of their head. Otherwise no such guarantee holds, validation notwithstanding: what is validated is the message as the element it is, and what is read is the input of the method that was found. Every message that is valid as some element of the service gets a method called without any of its fields if it is sent with the SOAP action of the method, or if it has the local name of the method's input in another namespace.", "quantifier": "all services, schemas and imports, methods, requests, middlewares and hooks; all messages; any validator that rejects undeclared elements and missing required children", "why_tests_cant": "a test can only show it for the pairs of elements and actions it tries", "anchors": ["soapfish/soap_dispatch.py: SOAPDispatcher._find_handler_for_request, SOAPDispatcher._parse_input, SOAPDispatcher._validate_body, SOAPDispatcher._prepare_request", "soapfish/soap.py: Service.find_element_by_name"]}
{"id": "C100", "title": "Requests that are served at the same time do not influence each other", "statement": "Let a server have any number of threads, each of which serves a request of its own with some dispatcher, where methods, middlewares and hooks use only the request that they are called with. The threads take turns in any order, with a turn for each access to a request object. When a thread is done, its response (or the exception), the calls made and exceptions logged in it, and what became of the request object are as if there had been no other threads. There is a number of turns after which every thread is done, whatever the order: none waits for another. Dispatchers and services may be shared by the threads.", "quantifier": "all services, dispatchers, methods, middlewares and hooks of that kind; any number of threads; all schedules", "why_tests_cant": "tests of threads see a few of the possible orders; the claim is about all of them", "anchors": ["soapfish/soap_dispatch.py: SOAPDispatcher.dispatch, SOAPDispatcher._prepare_request, SOAPDispatcher.middleware, SOAPDispatcher.handle_soap_request, SOAPDispatcher._call_hook, call_method", "soapfish/core.py: SOAPRequest"]}
{"id": "C101", "title": "The text of generated code", "statement": "Let code be generated from an XSD document, where all names that end up in it are ASCII identifiers other than keywords, all texts can stand between their quotes, what is written without quotes is a word or a number, no attribute group or group is empty, and no class has a required element named 'cls' or two of one name. Then Python can read the text, and what it reads are exactly the statements the code is about: the classes with their bases, values, facets, fields and class methods, with nested blocks as indented, and the schema object with its arguments. Without the condition nothing of the kind is true: for every Python expression made of names, texts, numbers, attributes and calls there is an XSD document with one simple type whose generated code evaluates this expression when it is imported.", "quantifier": "all XSD documents within the condition; all expressions of that kind", "why_tests_cant": "a test can try some documents; that no document within the condition gives text that Python reads differently, and that any expression can be smuggled in, are statements about all of them", "anchors": ["soapfish/templates/xsd.jinja2", "soapfish/templates/lib.jinja2", "soapfish/xsd2py.py: schema_to_py"]}
{"id": "C102", "title": "The text of code generated from WSDL documents", "statement": "Let client or server code be generated from a WSDL document, where all names that end up in it are ASCII identifiers other than keywords, all texts can stand between their quotes, headers are elements, and no input element is named like a parameter that is there already ('self' and 'header' for clients, 'request' for servers). Then Python can read the text, and what it reads are exactly the statements the code is about: the imports, the classes and schema objects, the functions, header classes, methods and services, and the stub with one method for each operation that passes its parameter and the header on; everything else is comments, whatever the addresses of the ports are. With an input element 'header' the client cannot be imported, with 'request' the server. For every Python expression made of names, texts, numbers, attributes and calls there is a WSDL document with one port whose generated code evaluates this expression when it is imported.", "quantifier": "all WSDL documents within the condition, both kinds of code; all expressions of that kind", "why_tests_cant": "a test can try some documents; the claim is about all of them", "anchors": ["soapfish/templates/wsdl.jinja2", "soapfish/templates/xsd.jinja2", "soapfish/templates/lib.jinja2", "soapfish/wsdl2py.py: generate_code_from_wsdl", "soapfish/utils.py: url_regex"]}
{"id": "C103", "title": "Programs with classes of their own for the same documents understand each other", "statement": "Let a client and a server have classes of their own, in different modules and under different names, where classes go together: the same kinds of fields in the same order, written under the same names, with types that go together; the fields may have different names in Python. Then values that go together are written as the same document by both programs, or the same exception is raised; every value of one program that survives being written and read has a counterpart in the other one; what one program writes the other reads as a counterpart; and a call of an operation through the client's stub gives the server's method a counterpart of the client's argument, and the client a counterpart of what the method returned.", "quantifier": "all tables of classes on either side, all pairings of classes, all values that survive, all services, operations and methods", "why_tests_cant": "tests use the same classes on both sides, or one pair of modules; the claim is about every pair of modules that describe the same documents", "anchors": ["soapfish/xsd.py: ComplexType.render, ComplexType.parse_xmlelement, ComplexType.xml", "soapfish/soap.py: Stub.call", "soapfish/soap_dispatch.py: SOAPDispatcher.dispatch, SOAPDispatcher._parse_input"]}
{"id": "C104", "title": "Classes generated from the XSD document of a program go together with its own", "statement": "Let the XSD document of a program's schema object be generated, serialised and read again, and let Python code be generated from it and imported. If the names and types of the schema can be written in XSD and in Python, and no type of a field has restrictions that the XSD document does not show, nothing of this fails, and the classes of the code go together with those of the program, field by field. So what the program writes with its class of a complex type is read by the generated class of that name as a counterpart, and what the generated class writes is read by the program's class. Restrictions that are zero are not in the document: with Decimal(minInclusive=0) the program refuses -1 and the generated class accepts it.", "quantifier": "all schema objects of that kind, all programs whose classes they describe, all values that survive, all documents", "why_tests_cant": "tests compare generated text with expected text for some schemas; whether the generated classes behave like the original ones is a statement about all values of all classes", "anchors": ["soapfish/py2xsd.py: generate_xsdspec, xsd_complexType, create_xsd_element, xsd_simpleType", "soapfish/xsd2py.py: schema_to_py", "soapfish/xsd.py: ComplexType.render, ComplexType.parse_xmlelement, Decimal.__init__", "soapfish/templates/xsd.jinja2", "soapfish/templates/lib.jinja2"]}
{"id": "C105", "title": "A client generated from the WSDL document of a hand-written server can call it", "statement": "Let a server be written by hand: classes, a schema object that lists them, methods and a service. Let its WSDL document be generated, serialised and read again, and let client code be generated from it. If service and schema survive this (plain names and texts, types without restrictions that the document does not show), nothing fails, and a program can be made of the code. Its methods have the operations of the server, and the generated classes go together with the server's. When the client calls an operation with an object of the generated input class, the server's method gets the object of the server's own class that goes with it, field by field, and the client gets an object of the generated output class that goes with what the method returned - provided the two documents survive transport and the request is valid.", "quantifier": "all hand-written servers of that kind, all operations with one element in and out, all values that survive, all methods", "why_tests_cant": "tests call generated clients for a few services; this is about the composition of both generators, the classes, the stub and the dispatcher for all of them", "anchors": ["soapfish/py2wsdl.py: generate_wsdl", "soapfish/wsdl2py.py: generate_code_from_wsdl", "soapfish/templates/wsdl.jinja2", "soapfish/soap.py: Stub.call", "soapfish/soap_dispatch.py: SOAPDispatcher.dispatch", "soapfish/xsd.py: ComplexType.render, ComplexType.parse_xmlelement"]}
{"id": "C106", "title": "References, groups and lists in generated code", "statement": "Let code be generated from an XSD document and imported, where no two classes have the same name and none assigns a name twice. Every name that a complex type refers to as a type, an element, an attribute or a group of attributes then belongs to a definition of the document that has a class of its own: a simple type, a group, a complex type, or a top-level element with its type in place. So a document whose types refer to attributes, to elements with a named type, or to anything in another namespace gives code that cannot be imported. The class of a complex type has one field for each attribute, where a reference to an attribute counts as one of this name, then a Ref for each attribute group, then one field for each element; a reference to an element becomes a Ref to the class of that name. Groups become classes that are groups; elements of a group are required, whatever the document says. A class with a field of a list type can never be instantiated.", "quantifier": "all XSD documents and complex types that are not derived; all references, groups and lists", "why_tests_cant": "a test can try some documents; that every document with such a reference fails, and that no sequence of arguments creates an instance with a list type, are statements about all of them", "anchors": ["soapfish/templates/lib.jinja2", "soapfish/templates/xsd.jinja2", "soapfish/utils.py: get_type", "soapfish/xsd2py.py: schema_to_py", "soapfish/xsd.py: Ref, Group, AttributeGroup, List, ComplexType._force_elements_type_evalution"]}
{"id": "C107", "title": "The XSD document of a program says exactly which documents the program understands", "statement": "Take the XSD document that is generated for a program's schema object, in which every complex type is a sequence, the types of elements are classes whose values are checked completely (texts, their restrictions, booleans, integers, decimals, floats, dates and times, complex types), and lists say how many items they need. What the program writes with its class of a complex type, from an object whose required fields are set, is valid for the type of that name in the document. Every element that is valid for it, with texts that are kept, is read by the program's class, and writing the object gives the same content. Without minOccurs, a program writes empty lists that its own document does not allow.", "quantifier": "all schema objects of that kind, all programs whose classes they describe, all objects and all valid documents, of any size and depth", "why_tests_cant": "a test validates some documents against some schema; that everything that can be written is valid, and everything valid is understood, is a statement about infinitely many documents of infinitely many programs", "anchors": ["soapfish/py2xsd.py: generate_xsdspec, xsd_complexType, create_xsd_element, xsd_simpleType", "soapfish/xsd.py: ComplexType.render, ComplexType.parse_xmlelement, ComplexType.xml, Element.render, ListElement.render, ListElement.parse"]}
{"id": "C108", "title": "Requests written with the classes of a schema pass the dispatcher's validation", "statement": "Let a server be written by hand and let client code be generated from its WSDL document, as in C105, and let the server's schema be one whose XSD document says what its classes enforce (C107). If the validator of the dispatcher accepts everything that is valid for the XSD document of the server's schema object, and transport puts no text but white space between elements, a call with an object whose required fields are set never fails validation: the body of the request is valid for the document. So the server's method gets the counterpart of the argument, and the client a counterpart of what the method returned, without the assumption of C105 that the request is valid.", "quantifier": "all hand-written servers of that kind, all operations whose input element has a named complex type, all arguments whose required fields are set, all methods", "why_tests_cant": "a test sends some requests to some server; that no complete argument of any operation is refused is a statement about all requests", "anchors": ["soapfish/py2xsd.py: schema_validator, generate_xsd", "soapfish/soap.py: Stub.call", "soapfish/soap_dispatch.py: SOAPDispatcher._validate_body, SOAPDispatcher._validate_input, SOAPDispatcher.dispatch", "soapfish/xsd.py: ComplexType.render, ComplexType.xml"]}
{"id": "C109", "title": "Writing and reading with validation", "statement": "Let a program use `xml(schema=...)` and `parsexml(..., schema)` with its own schema object, where lxml accepts everything that is valid for the XSD document of this schema object (within the limits of C107). An object whose required fields are set is written exactly as without validation, as a top-level element with its class. The text, if it survives, is read by `parsexml` with the schema object as an object with the same fields. A text whose document is valid, with values that are kept, is read, and writing the object gives the same content. What lxml refuses is neither written (DocumentInvalid) nor read (XMLSyntaxError), and what it accepts is written and read as without validation.", "quantifier": "all schema objects of that kind, all programs whose classes they describe, all objects and texts, all validators", "why_tests_cant": "a test validates some objects of some classes; that validation never gets in the way of a complete object, and always in the way of an invalid one, is about all of them", "anchors": ["soapfish/xsd.py: ComplexType.parsexml, ComplexType.xml, ComplexType.parse_xmlelement", "soapfish/py2xsd.py: generate_xsd"]}
{"id": "C110", "title": "Documents", "statement": "A `Document` whose field holds an instance of the class of the field is written exactly as this instance is with `xml()` under the Python name of the field, without a namespace; if the text survives, `parsexml` of the document's class sets the attribute of the class to an instance with the same fields. The root element never has a namespace, whatever tag name or schema there is, so the document is valid for no schema with a target namespace. Without a field (IndexError), with None or an empty list in it (TypeError) a document cannot be written; of a list only the last item is written; a document with a list is never read.", "quantifier": "all classes of documents, all values, all texts", "why_tests_cant": "the only test writes one document; reading is not tested; the claims are about all documents", "anchors": ["soapfish/xsd.py: Document.render, Document.parsexml, ComplexTypeMetaInfo.__init__"]}
{"id": "C111", "title": "Headers of a call arrive in both directions", "statement": "Let a client call an operation with a header object, and let the method compute the object and the header of its response from the header of the request (request.soap_header) and its parameter. If the header's class is the one the method (or else the service) declares for input, the method finds a header and a parameter with the same fields as those sent; if the class of the header it returns is the output_header that the client's method declares, the client's response has an object and a header with the same fields as those the method computed. This is true as well between programs with classes of their own, where classes of parameters, results and headers go together as in C103.", "quantifier": "all services, operations, header classes, headers and parameters that survive, and all functions from header and parameter to header and result; all pairings of classes", "why_tests_cant": "a test sends some header through one server; the claim is about every header, every class and every method, in both directions at once", "anchors": ["soapfish/soap.py: Stub.call, Stub._handle_response", "soapfish/soap_dispatch.py: SOAPDispatcher._parse_header, SOAPDispatcher.handle_soap_request, call_method", "soapfish/soap11.py: Header.parse_as, Envelope.response", "soapfish/core.py: SOAPResponse"]}
{"id": "C112", "title": "Which objects a dispatcher can answer with", "statement": "When middlewares and method return an object rather than a SOAPError, the answer is a document whose Body has one child, named after the output of the request's method - if this output is the name of an element. If the method's output is a class, or if the request has no method because a middleware answered instead of calling the next one, AttributeError escapes from the dispatcher, whatever the middlewares are, ExceptionToSoapFault included. So a service whose methods have classes as outputs answers nothing but faults, although the client's stub and the constructors accept such methods. Objects and headers whose class belongs to no schema cannot be answered with either.", "quantifier": "all services, methods, middlewares, requests and states without hooks for SOAP requests", "why_tests_cant": "a test shows that one such method fails; that no request, middleware or method makes it work is a statement about all of them", "anchors": ["soapfish/soap_dispatch.py: SOAPDispatcher.handle_soap_request, SOAPDispatcher.middleware", "soapfish/soap11.py: Header.render, Envelope.response", "soapfish/xsd.py: NamedType, Method.__init__", "soapfish/middlewares.py: ExceptionToSoapFault"]}
{"id": "C113", "title": "When dates are equal", "statement": "Two values of date fields are equal exactly if year, month, day and offset are the same. What is read from the text of a date (from the year 1000 on, offset in minutes) is equal to the date that was written and to no other. A datetime.date assigned to a field becomes the date that XSDDate.from_datetime_date makes of it and as_datetime_date takes it back, but the field is not equal to the datetime.date; it is equal to every datetime of that day with the same offset, so that two different datetimes are equal to the same date. The order of the two sides does not matter, and nothing else is equal to a date.", "quantifier": "all dates, offsets and times of day, all other simple values", "why_tests_cant": "a test compares some dates; the claim is about all pairs", "anchors": ["soapfish/xsd_types.py: XSDDate.__eq__, XSDDate.from_datetime_date, XSDDate.as_datetime_date", "soapfish/xsd.py: Date.accept, Date.xmlvalue, Date.pythonvalue"]}
{"id": "C114", "title": "A server keeps to its XSD document, whoever calls it", "statement": "Whoever has only the XSD document generated for a program, and sends its server a plain SOAP message whose body is an element valid for that document (with texts that are kept as they are), gets the method for that element called with an object that says the same as the element; and what the method answers, when its required fields are set, is an element valid for the document, sent with status 200.", "quantifier": "all programs whose classes the schema object lists, all valid messages, methods and answers", "why_tests_cant": "a test sends requests that soapfish wrote itself; the claim is about every request that any client may derive from the document", "anchors": ["soapfish/xsd.py: ComplexType.parse_xmlelement, ComplexType.render", "soapfish/soap_dispatch.py: SOAPDispatcher.dispatch", "soapfish/py2xsd.py: generate_xsd"]}
{"id": "C115", "title": "What a greater recursion limit changes", "statement": "Calling a class, reading a document and writing an object give the same result or raise the same exception under every greater recursion limit, unless the exception was RecursionError.", "quantifier": "all classes, arguments, documents and objects, all limits", "why_tests_cant": "a test runs under one limit; the claim compares all of them", "anchors": ["soapfish/xsd.py: ComplexType.__init__, ComplexType.parse_xmlelement, ComplexType.render, ComplexType.xml"]}
{"id": "C116", "title": "What becomes of the text 'nil'", "statement": "The text 'nil' is None for numbers, truth values, dates and times, and a text like others for strings. An element with this text and without xsi:nil is read as None, and is missing when the object is written again. NIL in a nillable attribute is written as the text 'nil' and never read as NIL again: it is None, or for strings the text 'nil'.", "quantifier": "all classes, documents and simple types of those kinds", "why_tests_cant": "a test would have to try the text with all types in all places; nobody thinks of it as special", "anchors": ["soapfish/xsd.py: Boolean.pythonvalue, Date.pythonvalue, DateTime.pythonvalue, Time.pythonvalue, Decimal.pythonvalue, Attribute.render"]}
{"id": "C117", "title": "Code for XSD documents that include or import each other", "statement": "Code generated for an XSD document and the local documents it leads to contains each of these documents once, every one after those it refers to unless they lead back to it, and the document itself last. The schema of each is assigned to a variable named after its target namespace, by which imports refer to it, and (but for the first document) to one named after its location, by which includes refer to it however they spell the location. If no two of these names collide: importing the module succeeds only if every document comes after those it includes and after one with each namespace it imports; then the schema objects have the target namespaces of their documents and import schemas with the namespaces the documents import. Documents that depend on each other in a circle give a module that cannot be imported. Without circles, and if every imported namespace is that of a document that is imported, no schema variable is missing. A document without target namespace among those needed makes generation fail, even if it is included by one that has a target namespace.", "quantifier": "all sets of documents in a file system, all spellings of locations, all graphs of includes and imports, all recursion limits", "why_tests_cant": "a test generates code for one or two documents; order, circles and names are about all graphs of documents", "anchors": ["soapfish/xsd2py.py: resolve_import, generate_code_from_xsd, schema_to_py, rewrite_paths", "soapfish/utils.py: resolve_location"]}
{"id": "C118", "title": "What the command line programs do to files", "statement": "When `xsd2py` or `wsdl2py` ends with 0, the output (a file, or the standard output without one) holds the code generated for the input without ASCII white space at its ends, and nothing else has changed. The input is a file seen from the working directory, the standard input or what is found at a URL, and locations in it are seen from the directory of the input file, or from the URL up to its last slash. When any exception is raised, the output file has been emptied already, and nothing else has changed. An output file that cannot be opened makes the program end with 2 with nothing changed. A program whose output is its input never sees the input. `py2xsd` and `py2wsdl` end with 0 only if the module has a variable `Schema` or `SERVICE`, and then the output is its document; the module that `xsd2py` writes has no variable `Schema`, unless a class has this name, so that `py2xsd` raises AttributeError for it.", "quantifier": "all file systems, working directories, paths, inputs, code generators and modules", "why_tests_cant": "a test runs a program on some file; that nothing else changes, and what is left after failures of all kinds, is about all runs", "anchors": ["soapfish/xsd2py.py: main", "soapfish/wsdl2py.py: main", "soapfish/py2xsd.py: main", "soapfish/py2wsdl.py: main", "soapfish/utils.py: open_document"]}
{"id": "C119", "title": "Schemas of a WSDL document that import each other", "statement": "Call a schema of a WSDL document early if every namespace it imports is that of an early schema before it in the document. In the generated module the early schemas come first and then the others, both in the order of the document. So the module can be imported only if each imported namespace is that of a schema that comes before the importing one in this order, and if it is, every schema finds those it imports (namespaces being different, no digests collide). It is enough that the document is sorted, each schema after those it imports, or that imported schemas import nothing. It is not enough that there is no circle: if a schema imports one after it, which imports one after that again, the module can never be imported. Schemas that import each other in a circle never work.", "quantifier": "all WSDL documents whose schemas have target namespaces, any number of schemas and imports in any order, client and server, all recursion limits", "why_tests_cant": "a test generates code for one document in one order; the claim is about all graphs of imports and all orders", "anchors": ["soapfish/wsdl2py.py: reorder_schemas, generate_code_from_wsdl", "soapfish/xsd2py.py: schema_to_py"]}
{"id": "C120", "title": "Schemas of a WSDL document that include or import XSD documents", "statement": "The code for a schema of a WSDL document is the code of the XSD documents it leads to, each once and in the order of C117, and then its own; the schemas are in the order of C119. So the code of an XSD document is there as often as there are schemas that lead to it. The module can be imported only if each imported namespace is that of a schema that comes before, or of a document that the importing schema or one before it leads to; if so, and if documents have no circles and import what they say, no schema variable is missing. A schema that imports another one after it in the WSDL document, which imports a namespace from an XSD document, makes the module impossible to import, because only namespaces of schemas in the WSDL document count when schemas are put in order.", "quantifier": "all WSDL documents and all sets of local XSD documents, any number of schemas, all graphs of includes and imports, all recursion limits", "why_tests_cant": "a test generates code for one document with one import; order and copies are about all graphs", "anchors": ["soapfish/wsdl2py.py: generate_code_from_wsdl, reorder_schemas", "soapfish/xsd2py.py: schema_to_py, resolve_import, generate_code_from_xsd"]}
{"id": "C121", "title": "The texts of decimals and floats", "statement": "A Decimal, Double or Float field reads every text of xsd:decimal and of xsd:double - signs, leading zeros, a point without digits before or after it, powers of ten with e or E, INF, -INF and NaN - as the number it denotes, and then checks the facets as if that float had been assigned. A finite float is written as a text of xsd:double that denotes the same number; it is a text of xsd:decimal only if the float is zero or at least 0.0001 and below 10^16 in absolute value, otherwise a power of ten follows that xsd:decimal does not know. Infinite floats and NaN are written as inf and nan, which are no texts of xsd:double: a valid document can be read and written as an invalid one. An int is always written as a text of xsd:decimal. True and False are accepted as well, but written as words that are no numbers and that the field itself refuses to read. A decimal.Decimal is kept and written as a text of xsd:double for the same number, which is one of xsd:decimal only if the exponent is not above 0 and the number not closer to zero than 0.000001 (zero: at most six places).", "quantifier": "all texts of the two XML Schema types, all ints, all Decimals, all floats of at most 15 significant digits, all facets", "why_tests_cant": "a test tries some numbers; the forms change at powers of ten that few tests reach", "anchors": ["soapfish/xsd.py: Decimal.accept, Decimal.xmlvalue, Decimal.pythonvalue, Double, Float"]}
{"id": "C122", "title": "XSD documents on web servers", "statement": "If code is generated from an XSD document that is given by its URL, a relative reference in it, or in any document it leads to, is resolved as if the document with the reference was one directory above that of the first document: a document at D/x/first.xsd that includes name gets D/name instead of D/x/name. Exactly the documents reached in this way are needed, whatever is at the URLs that were meant; for documents at the root of a host, they are those that were meant. The program takes the URL without the last name for the directory. A relative reference in a document on a web server that a local document includes or imports is taken for a local file, seen from the directory of the first document.", "quantifier": "all sets of documents, all hosts, all directories, all relative references (names, '.' and '..', with or without a leading slash), all graphs of includes and imports, all recursion limits", "why_tests_cant": "the network is not there in tests, which include local files only; which documents are asked for depends on where they are", "anchors": ["soapfish/xsd2py.py: rewrite_paths, resolve_import, schema_to_py, generate_code_from_xsd, main", "soapfish/utils.py: resolve_location, open_document"]}
{"id": "C123", "title": "What is assigned to repeated elements as a whole", "statement": "An attribute for a repeated element takes whatever is assigned to it, unchecked, and what is appended to an assigned list is not checked either. A list is written item by item, so a document can be written that its own class cannot read: if the text of one item is none that the type reads - a number out of range, a word for a number -, the document is rejected. A text is written character by character, each in an element of its own, and minOccurs and maxOccurs count characters. Anything else, None included, makes rendering fail.", "quantifier": "all classes, all values, all bounds, all documents written", "why_tests_cant": "tests assign lists of proper items", "anchors": ["soapfish/xsd.py: ListElement.accept, ListElement.render, ListElement.parse, TypedList.append, ComplexType.__setattr__"]}
{"id": "C124", "title": "Choices in generated code", "statement": "The class generated for a complex type whose content is a choice, or for an extension that ends in one, never reads any of its children: after parsing, the attributes of all elements are None or empty lists, those of the elements of base types included, unless the element itself has the name of one of the alternatives. So what an instance of such a class holds is lost when it is written and read. Nothing enforces the choice: if several alternatives are set, all of them are written.", "quantifier": "all XSD documents, all complex types with layers of elements and attributes of their own, all documents, all instances", "why_tests_cant": "code generation is tested on sample documents and never run on documents with a choice", "anchors": ["soapfish/templates/lib.jinja2: render_complexType", "soapfish/xsd.py: ComplexType.parse_xmlelement, ComplexType.render, Choice", "soapfish/xsd2py.py: schema_to_py"]}
{"id": "C125", "title": "Fields with the names of methods", "statement": "A field called accept, render, xml or parse_xmlelement hides the method of complex types. If a class has a field called accept, no class with an element of this type can have an instance or read a document, and lists of such elements stay empty but for NIL; instances of a class with a field called render cannot be written, by themselves or inside others; a field called xml or parse_xmlelement makes the method raise TypeError. With other names fields have no such effect: instances are made, written and read as the other properties say. Code generation renames keywords only, so elements of these names in an XSD document give such fields. An element called create, by itself or inherited, is lost from each generated class that has a class method create.", "quantifier": "all tables of classes, all types and names of other fields, all values, all documents, all recursion limits; for code generation all XSD documents", "why_tests_cant": "sample classes avoid these names, and a test of one class says nothing about the others that refer to it", "anchors": ["soapfish/xsd.py: ComplexType.__new__, ComplexType.__setattr__, ComplexType.accept, ComplexType.render, ComplexType.parse_xmlelement, ComplexType.xml, Element._evaluate_type, TypedList.append", "soapfish/templates/lib.jinja2: render_complexType", "soapfish/xsd2py.py: schema_to_py"]}
{"id": "C126", "title": "Groups are missing from generated XSD documents", "statement": "The XSD document that is generated for a schema describes the elements of a class but not its groups (xsd.Ref to a subclass of xsd.Group): the children of an instance follow the sequence in the document if and only if its groups add no children. So an instance with an element in one of its groups is written in a form that the document does not allow, although the class reads it, and if a document follows the sequence, all groups of the instance read from it are empty. Users who publish the generated XSD or validate with it cannot use groups.", "quantifier": "all schemas, all classes with elements, lists and groups, all instances, all documents", "why_tests_cant": "tests generate XSD from classes without groups, and never validate what classes with groups write", "anchors": ["soapfish/py2xsd.py: xsd_complexType, generate_xsdspec", "soapfish/xsd.py: Ref.render, Element.parse, ComplexTypeMetaInfo, Group"]}
{"id": "C127", "title": "Complex types derived by restriction in generated code", "statement": "The class generated for a complex type that restricts another has all fields of the class of the other one except those whose names the restriction repeats, followed by its own. Attributes are thus inherited as XML Schema says, and if a restriction repeats all elements of its base, the class has the elements of the restriction, with their types and occurrences, in their order. But elements that the restriction leaves out are not forbidden: the class reads them and writes them, in front of all that the restriction repeats, wherever the base type has them.", "quantifier": "all XSD documents, all restrictions of types with layers of elements and attributes of their own, all documents, all instances", "why_tests_cant": "the sample documents contain extensions only; what a restriction forbids shows in documents that tests do not contain", "anchors": ["soapfish/templates/lib.jinja2: render_complexType", "soapfish/xsd2py.py: schema_to_py", "soapfish/xsd.py: ComplexTypeMetaInfo, ComplexType.parse_xmlelement, ComplexType.render"]}
{"id": "C128", "title": "The text of a decimal or float is never silently misread", "statement": "Reading any text with a Decimal, Double or Float type gives None for 'nil'; the float that the text denotes in Python, checked against the facets as if it had been assigned; or ValueError. The texts that denote floats are: white space, an optional sign, digits of any script with single underscores between digits and at most one point, an optional power of ten, white space; and the words inf, infinity and nan in any case. So nothing is cut off, ignored or guessed, and no other text is read; but texts are read that XML Schema does not allow, such as '1_000', 'Infinity' and digits of other scripts. The sign of zero is kept.", "quantifier": "all texts, all facets", "why_tests_cant": "infinitely many texts, most of them not numbers; tests try a handful of each", "anchors": ["soapfish/xsd.py: Decimal.pythonvalue, Decimal.accept, Double, Float"]}
{"id": "C129", "title": "Namespaces with the same variable in generated code", "statement": "Generated code gives each schema a variable that is named after five hexadecimal digits of a hash of its target namespace. If a document imports two namespaces with the same digits, the code can still be generated and imported, but the schema object of the document imports one schema twice and the other not at all: its imports are told apart by the digits only. Whatever hash is used, there are two such namespaces, and among any 1048577 namespaces there are two.", "quantifier": "all hash functions with five hexadecimal digits, all sets of documents, all namespaces", "why_tests_cant": "a test would need a collision; the sample documents have none, and none is reported when it happens", "anchors": ["soapfish/utils.py: schema_name", "soapfish/templates/lib.jinja2: render_Schema", "soapfish/xsd2py.py: schema_to_py"]}
{"id": "C130", "title": "What complex types may be derived from in generated code", "statement": "Code generated for a document can be imported only if, for each complex type that extends or restricts another, the other belongs to a definition of the document that gets a class with fields, and the statement of that class comes first; so there are no circles. If the base is a type of XML Schema, as the anyType of the long form of plain complex types, the code is generated but cannot be imported. Each name that the content of a derived type refers to must belong to a definition that gets a class, too.", "quantifier": "all documents, all chains of derivations of any length", "why_tests_cant": "documents of any size; the failure shows up only when the generated code is imported", "anchors": ["soapfish/templates/lib.jinja2: render_complexType", "soapfish/utils.py: get_get_type, find_xsd_namespaces", "soapfish/xsd2py.py: _reorder_complexTypes", "soapfish/xsd.py: Schema.__init__, ComplexType._force_elements_type_evalution"]}
{"id": "C131", "title": "Which of the definitions of one name gets the class in generated code", "statement": "Types, groups and elements of a document share the names of classes, also when they differ only in the case of the first letter. If a top-level element with its type in place has the name, and no later one does, the class has the element's fields, whatever else has the name. If there are no derived types and no such element, the last complex type of the name has the class, whatever simple types, groups and earlier complex types have the name. So, for a type and an element with its type in place of the same name, as XML Schema permits, the schema object lists the name under its complex types, but the class lacks the fields of the type.", "quantifier": "all documents, all numbers of definitions of a name", "why_tests_cant": "documents of any size; nothing fails when the code is generated and imported", "anchors": ["soapfish/templates/xsd.jinja2", "soapfish/templates/lib.jinja2: render_complexType, render_schema", "soapfish/xsd2py.py: _reorder_complexTypes, generate_code_from_xsd", "soapfish/utils.py: capitalize"]}
{"id": "C132", "title": "Generating code from the documents a dispatcher serves", "statement": "The URL of a document referred to by a query, such as '?xsd=s', is the query appended to the directory of the referring document, not to the document's own URL; and the generators take the URL of a service up to its last slash for the directory. So code for a document with such an import or include can be generated only if the directory itself answers the query; and if only the URL of the service gives documents, there is no code for any document that a dispatcher serves with locations rewritten to queries.", "quantifier": "all URLs of services, all queries, all contents of the web, all documents", "why_tests_cant": "the web may have any contents; a test would have to serve documents over HTTP", "anchors": ["soapfish/xsd2py.py: rewrite_paths, main", "soapfish/wsdl2py.py: main", "soapfish/soap_dispatch.py: _rewrite_locations", "soapfish/utils.py: resolve_location, open_document"]}
{"id": "C133", "title": "What the header fields of generated code are called", "statement": "In code generated from a WSDL document, an instance of a header class is written with the names of the message parts as tags, not with the names of the elements the parts refer to: every child is called like a part, and each part with a value has a child called like it. A strict dispatcher of a service that declares no elements called like the parts answers a message with such a header with a Client fault, and no method runs. A header with children called like the elements is read like an empty one, unless an element is called like a part. If classes have an element in common under different part names, the field is called like the part of the last class, in the earlier classes as well, where the part's own name is not a field.", "quantifier": "all lists of header classes of a schema, all values, all documents", "why_tests_cant": "any number of header classes; each class is right on its own until another is created", "anchors": ["soapfish/templates/wsdl.jinja2", "soapfish/xsd.py: ComplexTypeMetaInfo.__init__, Schema.get_element_by_name, ComplexType.render, ComplexType._is_matching_element"]}
{"id": "C134", "title": "What of an XSD document the generators overlook", "statement": "Of each part of an XSD document only certain attributes and children are looked at (listed in Spec/Overlooked). Documents that differ only in other attributes, in comments, and in other elements of XML Schema - simpleContent, union, any, anyAttribute, references to groups, sequences and choices inside sequences, choices inside extensions, keys, redefinitions, annotations - are either both read or both rejected, and give the same code. So a complex type with simple content gets a class without fields, which reads every node as an instance without fields and writes it as an empty element: texts and attributes are lost without an error. Code for a document can be imported only if every simple type has a name that a definition with a class has; a union has no class.", "quantifier": "all pairs of documents, differing in any number of places at any depth; all nodes and instances", "why_tests_cant": "documents of any size; overlooking something shows only with a document that has it, and there is no error", "anchors": ["soapfish/xsdspec.py", "soapfish/xsd2py.py: generate_code_from_xsd", "soapfish/templates/xsd.jinja2", "soapfish/templates/lib.jinja2: render_simpleType, render_complexType, render_schema", "soapfish/xsd.py: ComplexType.parse_xmlelement, ComplexType._find_subelement"]}
{"id": "C135", "title": "What of a WSDL document the generators overlook", "statement": "Of each part of a WSDL document only certain attributes and children are looked at (listed in Spec/OverlookedWsdl), and of tags only the local names. Documents that differ only in other attributes, in comments, in the namespaces of tags, in other elements of WSDL, of its bindings and of policies, and in what C134 says of their schemas, are either both read or both rejected, and give the same code or none, for clients and for servers. Moreover, the code does not depend on documentation, on the bodies in a binding (parts, use, namespace), on faults and faults of headers, and on encoding styles: descriptions that agree apart from these give the same code, and so do documents that differ only in these and in what is overlooked (Spec/Used), if both are read.", "quantifier": "all pairs of documents and descriptions, differing in any number of places at any depth; both SOAP versions", "why_tests_cant": "documents of any size; a declared fault or an encoded body is dropped without an error, so that a test has to know beforehand what to look for", "anchors": ["soapfish/wsdl11.py", "soapfish/wsdl12.py", "soapfish/wsdl2py.py: generate_code_from_wsdl", "soapfish/templates/wsdl.jinja2", "soapfish/wsdl.py: get_by_name, get_message_object, get_message_header", "soapfish/xsd.py: ComplexType.parse_xmlelement, ComplexType._find_subelement"]}
{"id": "C136", "title": "One version of SOAP for all services of a WSDL document", "statement": "Code generated from a WSDL document is for SOAP 1.2 if any wsdl:binding in the document itself has a soap12:binding, and for SOAP 1.1 otherwise: this holds for all services in the code, whatever the binding of their own ports. So the service for the SOAP 1.1 port of a document with both bindings is for SOAP 1.2; bindings in imported documents do not count. What a client sends is settled by the version of its service alone: the namespace of the envelope, the content type and the place of the action.", "quantifier": "all documents with any bindings and ports; all descriptions, with or without imports; all calls of all clients", "why_tests_cant": "documents with any combination of bindings, ports and imports; that the wrong version is sent shows only with a server of another make that looks at it", "anchors": ["soapfish/soap.py: SOAPVersion.get_version_from_xml, Stub.call", "soapfish/wsdl2py.py: generate_code_from_wsdl", "soapfish/templates/wsdl.jinja2", "soapfish/soap11.py: build_http_request_headers", "soapfish/soap12.py: build_http_request_headers"]}
{"id": "C137", "title": "The version of an envelope is not looked at", "statement": "Neither the dispatcher nor the client looks at the namespaces of the envelope and the body, nor at the name of the envelope: if messages are put into envelopes of another version of SOAP (or of none), the dispatcher does the very same in every state, with all middlewares, hooks and methods, and a call gives the same. No VersionMismatch fault is ever sent on that account. The action of a message of the other version is not seen, so that the element in its body decides which method answers. Only faults of the other version are not understood: a client for SOAP 1.2 raises AttributeError for a fault of SOAP 1.1, and a client for SOAP 1.1 gets a fault without code and message for one of SOAP 1.2. A call raises a SOAPError only if the answer has a Fault in its Body, which for SOAP 1.2 has a Code and a Reason.", "quantifier": "all messages with an ordinary envelope and at most one Header (kept as it is); all worlds, states, middlewares, hooks and methods; all faults", "why_tests_cant": "equality of everything a dispatcher does under two readings of all messages at once, for arbitrary user code", "anchors": ["soapfish/soap_dispatch.py: SOAPDispatcher", "soapfish/soap.py: Stub._handle_response", "soapfish/xsd.py: ComplexType.parse_xmlelement, ComplexType._find_subelement", "soapfish/soap11.py: parse_fault_message", "soapfish/soap12.py: parse_fault_message"]}
{"id": "C138", "title": "What a call sends, and what of the answer counts", "statement": "A call of a stub sends one request, or it sends none and raises an exception of its own; any number of calls send at most as many requests, in their order. Every request goes to the address of the stub, has the name and the password of the stub if and only if the name is given and not empty, and is a message of the version of the service. Of the answer only the content counts: other statuses and headers of the answers change neither what is sent nor any outcome, so an answer with status 404 and a proper envelope is a success. An answer that is no XML document is an XMLSyntaxError, whatever its status.", "quantifier": "all stubs, all sequences of calls, all networks whose answers may depend on everything sent before", "why_tests_cant": "networks that answer in any way, and calls in any number; tests answer with status 200 or with a fault", "anchors": ["soapfish/soap.py: Stub.__init__, Stub.call, Stub._handle_response"]}
