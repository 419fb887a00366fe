import Verif.WsdlTextFacts
import Verif.Props.Text
/-
Properties of the text of code generated from WSDL documents: C102.
-/
set_option maxRecDepth 8000
namespace Soapfish

theorem all2_openings {prefixes : List (Option Str)} {digest : Str → Str} (hd : HexDigits digest) {n : Nat} {parent : Option Str} : ∀ {ds : List DSchema} {ms : List PyModule},
    All2 (fun d m => schemaToPy prefixes digest n parent d = .ok m) ds ms →
    ∃ oss, All2 (fun d os => ∃ cts, reorderComplex n d.complexTypes = .ok cts ∧ os = openings { d with complexTypes := cts }) ds oss ∧ All2 (fun os m => m.Regular os) oss ms := by
  intro ds ms h
  induction h with
  | nil => exact ⟨[], .nil, .nil⟩
  | cons h1 _ ih =>
    obtain ⟨oss, h2, h3⟩ := ih
    unfold schemaToPy at h1
    obtain ⟨cts, h4, h1⟩ := bind_eq_ok.1 h1
    obtain ⟨⟨m', k⟩, h5, h1⟩ := bind_eq_ok.1 h1
    cases Except.ok.inj h1
    exact ⟨_, .cons ⟨cts, h4, rfl⟩ h2, .cons (by have := regular_module hd h5; exact this) h3⟩

/-- Python reads the text of the code for a WSDL document as the statements it was made from, if all names are identifiers, all texts can stand between quotes and
parameters have different names.  Python ends the last line itself. -/
theorem C102_reads {prefixes : List (Option Str)} {digest : Str → Str} (hd : HexDigits digest) {netlocOk : Str → Bool} {n : Nat} {server : Bool} {v : Version} {definitions : Val}
    {m : PyWsdlModule} (h : wsdlToPy digest netlocOk prefixes n server v definitions = .ok m) (hf : m.Fits) {wsa : Bool} {generated : Str} (hg : OneLine generated)
    (hn : ∀ p ∈ portsOf definitions, ∀ u, addressOf p.2 = some u → Char.ofNat 0 ∉ u) :
    ∃ oss regexes, All2 (fun d os => ∃ cts, reorderComplex n d.complexTypes = .ok cts ∧ os = openings { d with complexTypes := cts })
        (reorderDescribed ((schemasOf definitions).map readSchema)) oss ∧
      wsdlRegexes netlocOk server definitions = .ok regexes ∧ regexes.length = m.ports.length ∧
      readPython (m.text wsa generated oss regexes ++ py"\n") = some (m.lines wsa oss) := by
  unfold wsdlToPy at h
  obtain ⟨ms, h1, h⟩ := bind_eq_ok.1 h
  obtain ⟨ps, h2, h⟩ := bind_eq_ok.1 h
  obtain ⟨oss, h3, h4⟩ := all2_openings hd (mapE_all2 h1)
  obtain ⟨os, h5, h6⟩ := mapE_length h2 fun p r hr => (regular_port hd hr).2
  cases Except.ok.inj h
  refine ⟨oss, os.filterMap id, h3, bind_eq_ok.2 ⟨os, h5, rfl⟩, h6, read_wsdl hf hg h4 (fun p hp => ?_) (fun x hx => ?_) h6⟩
  · obtain ⟨r, hr, rfl⟩ := List.mem_filterMap.1 hp
    obtain ⟨a, _, ha⟩ := (mapE_all2 h2).mem_right hr
    exact (regular_port hd ha).1 p rfl
  · obtain ⟨r, hr, rfl⟩ := List.mem_filterMap.1 hx
    obtain ⟨a, ha, hb⟩ := (mapE_all2 h5).mem_right hr
    obtain ⟨b, _, hb⟩ := bind_eq_ok.1 hb
    cases b with
    | false => cases hb
    | true =>
      cases server with
      | false => cases Except.ok.inj hb; exact fun _ h => nomatch h
      | true =>
        obtain ⟨y, hy, hb⟩ := bind_eq_ok.1 (show (regexOf netlocOk a.1 >>= fun y => .ok (some y)) = _ from hb)
        cases Except.ok.inj hb
        refine oneLine_regexOf hy fun q hq u hu => hn (a.1, q) ?_ u hu
        obtain ⟨s, hs, ha⟩ := List.mem_flatMap.1 ha
        obtain ⟨p, _, rfl⟩ := List.mem_map.1 ha
        exact List.mem_flatMap.2 ⟨s, hs, List.mem_map.2 ⟨q, hq, rfl⟩⟩

/-! ### What can be brought into the code -/

def instOf (fields : List (Str × Val)) : Val := .inst 0 fields none
def textVal (s : Str) : Val := .atom (.str s)

/-- A document with a port that has no operations. -/
def namespaceDoc (tns : Str) : Val := instOf [(py"targetNamespace", textVal tns),
  (py"portTypes", .list true [instOf [(py"name", textVal py"PT")]]),
  (py"bindings", .list true [instOf [(py"name", textVal py"Soap"), (py"type", textVal py"tns:PT"), (py"binding", instOf [(py"transport", textVal nsSoapHttp)])]]),
  (py"services", .list true [instOf [(py"name", textVal py"S"), (py"ports", .list true [
    instOf [(py"name", textVal py"P"), (py"binding", textVal py"tns:Soap"), (py"address", instOf [(py"location", textVal py"http://host/")])]])]])]

theorem namespace_code {digest : Str → Str} (tns : Str) : wsdlToPy digest (fun _ => true) [some py"xsd"] 1 true .soap11 (namespaceDoc tns) =
    .ok ⟨[], [⟨[], [], py"P", tns, py"${scheme}://${host}/", [], .soap11, none⟩]⟩ := rfl

/-- Any expression can be brought into the code by the target namespace, and is evaluated when the module is imported. -/
theorem C102_injection {digest : Str → Str} {s : Str} {e : PyExpr} (h : Written s e) : ∃ tns m,
    wsdlToPy digest (fun _ => true) [some py"xsd"] 1 true .soap11 (namespaceDoc tns) = .ok m ∧ ∀ wsa generated, OneLine generated →
    readPython (m.text wsa generated [] [py"^$"] ++ py"\n") = some (preambleLines wsa ++
      [(0, .assign (.name py"P_SERVICE") (.call (.soap py"Service") [(some py"name", .text py"P"), (some py"targetNamespace", .text []), (some py"x", e), (some py"y", .text []),
        (some py"location", .text py"${scheme}://${host}/"), (some py"schemas", .list []), (some py"version", .attr (.soap py"SOAPVersion") py"SOAP11"), (some py"methods", .list [])]))]) := by
  refine ⟨py"',x=" ++ (s ++ py",y='"), _, namespace_code _, fun wsa generated hg => read_of ?_ (nested_of_blocks (blocks_append (blocks_preamble wsa) ?_))⟩
  · have hargs := (keyArgs_key (k := py"name") (ident_of rfl) (reading_text (s := py"P") (quotable_plain (by decide)))).append
      ((keyArgs_key (k := py"targetNamespace") (ident_of rfl) (reading_text (s := []) (quotable_plain (by decide)))).append
        ((KeyArgs.cons (pre := []) (k := py"x") (.inl rfl) (ident_of rfl) h.reading (.cons (pre := []) (k := py"y") (.inl rfl) (ident_of rfl) (reading_text (s := []) (quotable_plain (by decide))) .nil)).append
          ((keyArgs_key (k := py"location") (ident_of rfl) (reading_text (s := py"${scheme}://${host}/") (quotable_plain (by decide)))).append
            ((keyArgs_key (k := py"schemas") (ident_of rfl) (reading_names (l := []) (fun _ h => nomatch h))).append ((keyArgs_key (k := py"version") (ident_of rfl) (reading_version .soap11)).append
              (keyArgs_key (k := py"methods") (ident_of rfl) (reading_names (l := []) (fun _ h => nomatch h))))))))
    have h1 : Reads' py"# Methods\n" [] := reads'_remark (s := py" Methods") (oneLine_of rfl)
    have h2 : Reads' py"# SOAP Service\n" [] := reads'_remark (s := py" SOAP Service") (oneLine_of rfl)
    have h8 : Reads' py"# Schemas\n" [] := reads'_remark (s := py" Schemas") (oneLine_of rfl)
    have h9 : Reads' py"# Operations\n" [] := reads'_remark (s := py" Operations") (oneLine_of rfl)
    have hs := reads'_keyCall (n := py"P_SERVICE") (m := py"soap") (F := py"Service") (ident_of rfl) (ident_of rfl) (ident_of rfl) hargs
    have hp := reads'_dispatch (n := py"P") (regex := py"^$") (ident_of rfl) (oneLine_of rfl)
    have := reads'_append (reads'_preamble (wsa := wsa) hg) (reads'_append reads'_banner (reads'_append h8 (reads'_append reads'_empty
      (reads'_append reads'_empty (reads'_append reads'_banner (reads'_append h9
        (reads'_append (reads'_append reads'_empty (reads'_append reads'_banner (reads'_append h1 reads'_empty)))
    (reads'_append (reads'_append reads'_empty (reads'_append reads'_banner (reads'_append h2 reads'_blank))) (reads'_append hs hp)))))))))
    unfold PyWsdlModule.text
    simp only [List.zipWith_cons_cons, List.zipWith_nil_right, List.flatten_cons, List.flatten_nil, PyPort.text, functionsText, List.flatMap_nil, PyPort.argsText, keyText, quoted, commaSep,
      versionText, List.map_nil, List.append_nil, List.nil_append, List.append_assoc, List.cons_append] at this ⊢
    exact this
  · exact blocks_line rfl

/-! ### Examples -/

namespace ExWsdlText

/-- A document with an operation that has a header; `element` is the element of the input. -/
def askDoc (element : Str) : Val := instOf [
  (py"targetNamespace", textVal py"urn:ask"),
  (py"types", instOf [(py"schemas", .list true [instOf [(py"targetNamespace", Val.none), (py"elementFormDefault", textVal py"unqualified"), (py"elements", .list true [
    instOf [(py"name", textVal element), (py"type", textVal py"xsd:string")],
    instOf [(py"name", textVal py"Token"), (py"type", textVal py"xsd:string")]])]])]),
  (py"messages", .list true [
    instOf [(py"name", textVal py"in"), (py"parts", .list true [instOf [(py"name", textVal py"p"), (py"element", textVal (py"tns:" ++ element))]])],
    instOf [(py"name", textVal py"extra"), (py"parts", .list true [instOf [(py"name", textVal py"token"), (py"element", textVal py"tns:Token")]])]]),
  (py"portTypes", .list true [instOf [(py"name", textVal py"PT"), (py"operations", .list true [
    instOf [(py"name", textVal py"Ask"), (py"input", instOf [(py"message", textVal py"tns:in")]), (py"output", instOf [(py"message", textVal py"tns:in")])]])]]),
  (py"bindings", .list true [
    instOf [(py"name", textVal py"Soap"), (py"type", textVal py"tns:PT"), (py"binding", instOf [(py"transport", textVal nsSoapHttp)]),
      (py"operations", .list true [
        instOf [(py"name", textVal py"Ask"), (py"operation", instOf [(py"soapAction", textVal py"urn:ask/1")]),
          (py"input", instOf [(py"headers", .list true [instOf [(py"message", textVal py"tns:extra"), (py"part", textVal py"token")]])])]])]]),
  (py"services", .list true [instOf [(py"name", textVal py"S"), (py"ports", .list true [
    instOf [(py"name", textVal py"P"), (py"binding", textVal py"tns:Soap"), (py"address", instOf [(py"location", textVal py"http://host/ask/me?q")])]])]])]

def code (server : Bool) (element : Str) : Except Exn PyWsdlModule := wsdlToPy (fun _ => py"01234") (fun _ => true) [some py"xsd"] 1 server .soap11 (askDoc element)

def askSchema : PyModule where
  classes := []
  schema := { var := py"Schema_01234", imports := [], includes := [], targetNamespace := py"urn:ask", elementFormDefault := py"unqualified", simpleTypes := [], attributeGroups := []
              groups := [], complexTypes := [], elements := [⟨py"question", .inl (.xsd py"String"), none⟩, ⟨py"Token", .inl (.xsd py"String"), none⟩] }

def askMethod (server : Bool) : PyMethod where
  name := py"Ask"
  headers := [⟨py"inHeaders", py"Schema_01234", [(py"token", .element py"Token")]⟩]
  function := server
  soapAction := py"urn:ask/1"
  input := some (.element py"question" py"p")
  inputHeader := some py"inHeaders"
  output := some (.element py"question" py"p")
  outputHeader := none
  style := none

def askCode (server : Bool) : PyWsdlModule :=
  ⟨[askSchema], [⟨if server then [⟨py"Ask", py"question", py"question"⟩] else [], [askMethod server], py"P", py"urn:ask", py"${scheme}://${host}/ask/me?q", [py"Schema_01234"], .soap11,
    if server then none else some ⟨py"http", py"host", [(py"Ask", py"question")]⟩⟩]⟩

theorem ask_code (server : Bool) : code server py"question" = .ok (askCode server) := by
  cases server <;> rfl

theorem ask_fits (server : Bool) : (askCode server).Fits := by
  refine ⟨fun s hs => ?_, fun p hp => ?_⟩
  · rw [List.mem_singleton.1 hs]
    refine ⟨(fun _ h => nomatch h), quotable_plain (by decide), quotable_plain (by decide), (fun _ h => nomatch h), (fun _ h => nomatch h), (fun _ h => nomatch h), (fun _ h => nomatch h), fun t ht => ?_⟩
    rcases List.mem_cons.1 ht with rfl | ht
    · exact ⟨quotable_plain (by decide), ident_of rfl, fun _ h => nomatch h⟩
    · rw [List.mem_singleton.1 ht]
      exact ⟨quotable_plain (by decide), ident_of rfl, fun _ h => nomatch h⟩
  · rw [List.mem_singleton.1 hp]
    refine ⟨fun f hf => ?_, fun m hm => ?_, ident_of rfl, quotable_plain (s := py"urn:ask") (by decide), quotable_plain (s := py"${scheme}://${host}/ask/me?q") (by decide), fun t ht => ?_⟩
    · cases server with
      | false => cases hf
      | true =>
        rw [List.mem_singleton.1 hf]
        exact ⟨ident_of rfl, ident_of rfl, by decide, ident_of rfl⟩
    · rw [List.mem_singleton.1 hm]
      refine ⟨ident_of rfl, fun h hh => ?_, quotable_plain (s := py"urn:ask/1") (by decide), fun p hp => ?_, fun p hp => ?_, (fun _ h => nomatch h)⟩
      · rw [List.mem_singleton.1 hh]
        refine ⟨ident_of rfl, fun q hq => ?_⟩
        rw [List.mem_singleton.1 hq]
        exact ⟨ident_of rfl, _, rfl, quotable_plain (by decide)⟩
      · cases hp; exact ⟨quotable_plain (by decide), quotable_plain (by decide)⟩
      · cases hp; exact ⟨quotable_plain (by decide), quotable_plain (by decide)⟩
    · cases server with
      | true => cases ht
      | false =>
        cases ht
        refine ⟨quotable_plain (by decide), quotable_plain (by decide), fun c hc => ?_⟩
        rw [List.mem_singleton.1 hc]
        exact ⟨ident_of rfl, ident_of rfl, by decide, by decide⟩

theorem ask_regexes : wsdlRegexes (fun _ => true) true (askDoc py"question") = .ok [py"^ask/me$"] := by rfl

/-- The code for the client: the class of the header, the method, the service and the stub. -/
example : (askCode false).ports.flatMap (PyPort.text []) = (
  py"\n" ++ banner ++ py"# Methods\n\n\n" ++
  py"class inHeaders(BaseHeader):\n" ++
  py"    SCHEMA = Schema_01234\n" ++
  py"    token = SCHEMA.get_element_by_name('Token')\n\n" ++
  py"Ask_method = xsd.Method(\n" ++
  py"    soapAction='urn:ask/1',\n" ++
  py"    input='question',\n" ++
  py"    inputPartName='p',\n" ++
  py"    input_header=inHeaders,\n" ++
  py"    output='question',\n" ++
  py"    outputPartName='p',\n" ++
  py"    operationName='Ask',\n)\n\n\n" ++
  banner ++ py"# SOAP Service\n\n\n" ++
  py"P_SERVICE = soap.Service(\n" ++
  py"    name='P',\n" ++
  py"    targetNamespace='urn:ask',\n" ++
  py"    location='${scheme}://${host}/ask/me?q',\n" ++
  py"    schemas=[Schema_01234],\n" ++
  py"    version=soap.SOAPVersion.SOAP11,\n" ++
  py"    methods=[Ask_method],\n)\n\n\n" ++
  banner ++ py"# SOAP Service Stub\n\n\n" ++
  py"class PServiceStub(soap.Stub):\n" ++
  py"    SERVICE = P_SERVICE\n" ++
  py"    SCHEME = 'http'\n" ++
  py"    HOST = 'host'\n\n" ++
  py"    def Ask(self, question, header=None):\n" ++
  py"        return self.call('Ask', question, header=header)\n") := by decide +kernel

/-- The function of the server and the comment with the pattern -/
example : functionsText ⟨[⟨py"Ask", py"question", py"question"⟩], [], [], [], [], [], .soap11, none⟩ = (
    py"\n" ++ banner ++ py"# Operations\n\n\n" ++
    py"def Ask(request, question):\n" ++
    py"    # TODO: Put your implementation here.\n" ++
    py"    return question\n\n") ∧
  dispatchText py"P" py"^ask/me$" = (
    py"\n" ++ banner ++ py"\n\n# NOTE: Uncomment the following lines to turn on dispatching for Django:\n" ++
    py"# from soapfish.django_ import django_dispatcher\n" ++
    py"# dispatcher = django_dispatcher(P_SERVICE)\n\n\n" ++
    py"# NOTE: Put these lines in the urls.py for your project or application:\n" ++
    py"# urlpatterns += patterns('',\n" ++
    py"#     (r'^ask/me$', '<module>.dispatcher'),\n" ++
    py"# )") := by decide +kernel

theorem ask_address : ∀ p ∈ portsOf (askDoc py"question"), ∀ u, addressOf p.2 = some u → Char.ofNat 0 ∉ u := by
  intro p hp u hu
  rw [List.mem_singleton.1 hp] at hu
  cases Option.some.inj hu
  decide

/-- The server is read as ten lines, the client as fourteen. -/
example (server : Bool) : ∃ oss regexes ls, readPython ((askCode server).text false py"today" oss regexes ++ py"\n") = some ls ∧ ls.length = (if server then 10 else 14) := by
  obtain ⟨oss, rs, h1, _, _, h2⟩ := C102_reads (wsa := false) ExText.hex (ask_code server) (ask_fits server) (oneLine_of (s := py"today") rfl) ask_address
  refine ⟨oss, rs, _, h2, ?_⟩
  cases h1 with
  | @cons _ b _ _ h h' =>
    cases h'
    clear h h2
    cases b <;> cases server <;> rfl

/-- A stub has the parameters `self` and `header` already, a function `request`. -/
example : ∃ m, code false py"header" = .ok m ∧ readPython (m.text false py"today" [[]] [[]] ++ py"\n") = none := ⟨_, rfl, by decide +kernel⟩
example : ∃ m, code true py"request" = .ok m ∧ readPython (m.text false py"today" [[]] [py"^ask/me$"] ++ py"\n") = none := ⟨_, rfl, by decide +kernel⟩

/-- A function can have a parameter `header`. -/
example : ∃ m, code true py"header" = .ok m ∧ readPython (m.text false py"today" [[]] [py"^ask/me$"] ++ py"\n") ≠ none := ⟨_, rfl, by decide +kernel⟩

/-- A header with a type in the place of an element is written behind the line before, which cannot be read. -/
example : (PyHeader.text ⟨py"inHeaders", py"Schema_01234", [(py"token", .cls py"Token")]⟩) =
    py"\nclass inHeaders(BaseHeader):\n    SCHEMA = Schema_01234token = xsd.Element(Token())\n" := by decide +kernel

/-- A system command in the target namespace -/
example : ∃ tns m ls, wsdlToPy (fun _ => py"01234") (fun _ => true) [some py"xsd"] 1 true .soap11 (namespaceDoc tns) = .ok m ∧
    readPython (m.text false py"today" [] [py"^$"] ++ py"\n") = some ls ∧ ls.length = 3 := by
  obtain ⟨tns, m, h1, h2⟩ := C102_injection (digest := fun _ => py"01234") ExText.bad_call
  exact ⟨tns, m, _, h1, h2 false py"today" (oneLine_of rfl), rfl⟩

end ExWsdlText

end Soapfish
