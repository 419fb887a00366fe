import Verif.Soap
/-
The classes describing XSD documents (soapfish/xsdspec.py) and WSDL documents (soapfish/wsdl11.py, soapfish/wsdl12.py)
as a class table.  `AnyURI`, `QName`, `NMTOKEN` and `NMTOKENS` are strings without facets (soapfish/xsd.py:1057-1079).
Fields are listed in creation order; a field redefined in soapfish/wsdl12.py is younger than all of soapfish/wsdl11.py.
-/
namespace Soapfish

/-- `ns.xsd`, `ns.wsdl`, `ns.wsdl_soap_http` (soapfish/namespaces.py:6, 12, 27) -/
def nsXsd : Str := py"http://www.w3.org/2001/XMLSchema"
def nsWsdl : Str := py"http://schemas.xmlsoap.org/wsdl/"
def nsSoapHttp : Str := py"http://schemas.xmlsoap.org/soap/http"

abbrev xEnumeration : ClsId := 0
abbrev xPattern : ClsId := 1
abbrev xRestrictionValue : ClsId := 2
abbrev xRestriction : ClsId := 3
abbrev xList : ClsId := 4
abbrev xSimpleType : ClsId := 5
abbrev xElement : ClsId := 6
abbrev xSequence : ClsId := 7
abbrev xAttribute : ClsId := 8
abbrev xAttributeGroup : ClsId := 9
abbrev xAttributeGroupReference : ClsId := 10
abbrev xExtension : ClsId := 11
abbrev xComplexContent : ClsId := 12
abbrev xComplexType : ClsId := 13
abbrev xGroup : ClsId := 14
abbrev xImport : ClsId := 15
abbrev xInclude : ClsId := 16
abbrev xSchema : ClsId := 17
abbrev wSoapBinding : ClsId := 18
abbrev wSoapOperation : ClsId := 19
abbrev wSoapHeaderFault : ClsId := 20
abbrev wSoapHeader : ClsId := 21
abbrev wSoapBody : ClsId := 22
abbrev wSoapFault : ClsId := 23
abbrev wSoapAddress : ClsId := 24
abbrev wTypes : ClsId := 25
abbrev wPart : ClsId := 26
abbrev wMessage : ClsId := 27
abbrev wImport : ClsId := 28
abbrev wInput : ClsId := 29
abbrev wOutput : ClsId := 30
abbrev wFault : ClsId := 31
abbrev wOperation : ClsId := 32
abbrev wPortType : ClsId := 33
abbrev wBinding : ClsId := 34
abbrev wPort : ClsId := 35
abbrev wService : ClsId := 36
abbrev wDefinitions : ClsId := 37

/-- `xsd.Attribute(xsd.String)`, required or `use=xsd.Use.OPTIONAL` -/
def strAttr (name : Str) (required : Bool := true) : Field :=
  { name := name, kind := .attribute, type := .simple (.string {}), required := required }

/-- `xsd.Attribute(xsd.String(enumeration=...))` -/
def enumAttr (name : Str) (values : List Str) (required : Bool := true) (default : Val := Val.none) : Field :=
  { name := name, kind := .attribute, type := .simple (.string { enumeration := values }), required := required,
    default := default }

/-- `xsd.Element(cls)` -/
def elem (name : Str) (c : ClsId) (required : Bool := true) (ns : Option Str := none) : Field :=
  { name := name, kind := .element, type := .complex c, required := required, nspace := ns }

/-- `xsd.ListElement(cls, tagname)` -/
def listOf (name tag : Str) (c : ClsId) (minOccurs : Option Int := none) (ns : Option Str := none) : Field :=
  { name := name, kind := .list, type := .complex c, tagname := some tag, minOccurs := minOccurs, nspace := ns }

/-- `documentation = xsd.Element(xsd.String, minOccurs=0)` -/
def documentation : Field :=
  { name := py"documentation", kind := .element, type := .simple (.string {}), required := false }

/-- Both `SCHEMA` objects set `SCHEMA` on the classes they list (soapfish/xsdspec.py:171-182,
soapfish/wsdl11.py:178-187). -/
def xsdSchema : Option SchemaInfo := some ⟨some nsXsd, true⟩
def wsdlSchema : Option SchemaInfo := some ⟨some nsWsdl, true⟩

/-- The class table; which of soapfish/wsdl11.py and soapfish/wsdl12.py is used depends on the SOAP version. -/
def specTable (v : Version) : Table
  -- soapfish/xsdspec.py:6-13
  | 0 => { name := py"Enumeration", mro := [xEnumeration], schema := xsdSchema, fields := [strAttr py"value"] }
  -- soapfish/xsdspec.py:16-18
  | 1 => { name := py"Pattern", mro := [xPattern], schema := xsdSchema, fields := [strAttr py"value"] }
  -- soapfish/xsdspec.py:21-26
  | 2 => { name := py"RestrictionValue", mro := [xRestrictionValue], schema := xsdSchema, fields := [strAttr py"value"] }
  -- soapfish/xsdspec.py:29-47
  | 3 => { name := py"Restriction", mro := [xRestriction], schema := xsdSchema, fields := [
      strAttr py"base", listOf py"enumerations" py"enumeration" xEnumeration, elem py"pattern" xPattern,
      elem py"minInclusive" xRestrictionValue, elem py"minExclusive" xRestrictionValue,
      elem py"maxExclusive" xRestrictionValue, elem py"maxInclusive" xRestrictionValue,
      elem py"fractionDigits" xRestrictionValue, elem py"totalDigits" xRestrictionValue,
      elem py"length" xRestrictionValue, elem py"minLength" xRestrictionValue,
      elem py"maxLength" xRestrictionValue, elem py"whiteSpace" xRestrictionValue] }
  -- soapfish/xsdspec.py:50-52
  | 4 => { name := py"List", mro := [xList], schema := xsdSchema, fields := [] }
  -- soapfish/xsdspec.py:55-59
  | 5 => { name := py"SimpleType", mro := [xSimpleType], schema := xsdSchema, fields := [
      strAttr py"name" false, elem py"restriction" xRestriction false, elem py"list" xList false] }
  -- soapfish/xsdspec.py:62-72
  | 6 => { name := py"Element", mro := [xElement], schema := xsdSchema, fields := [
      strAttr py"name" false, strAttr py"type" false, strAttr py"ref" false,
      { name := py"minOccurs", kind := .attribute, type := .simple (.integer (IntKind.integer.facets {})),
        required := false },
      { name := py"maxOccurs", kind := .attribute, type := .simple .maxOccurs, required := false },
      { name := py"nillable", kind := .attribute, type := .simple .boolean, required := false },
      strAttr py"substitutionGroup" false, elem py"simpleType" xSimpleType false,
      elem py"complexType" xComplexType] }
  -- soapfish/xsdspec.py:75-77
  | 7 => { name := py"Sequence", mro := [xSequence], schema := xsdSchema, fields := [
      listOf py"elements" py"element" xElement] }
  -- soapfish/xsdspec.py:80-86
  | 8 => { name := py"Attribute", mro := [xAttribute], schema := xsdSchema, fields := [
      strAttr py"name", strAttr py"ref", strAttr py"type", strAttr py"use", elem py"simpleType" xSimpleType false] }
  -- soapfish/xsdspec.py:89-92
  | 9 => { name := py"AttributeGroup", mro := [xAttributeGroup], schema := xsdSchema, fields := [
      strAttr py"name", listOf py"attributes" py"attribute" xAttribute] }
  -- soapfish/xsdspec.py:95-103
  | 10 => { name := py"AttributeGroupReference", mro := [xAttributeGroupReference], schema := xsdSchema, fields := [
      strAttr py"ref"] }
  -- soapfish/xsdspec.py:106-111
  | 11 => { name := py"Extension", mro := [xExtension], schema := xsdSchema, fields := [
      strAttr py"base", elem py"sequence" xSequence, listOf py"attributes" py"attribute" xAttribute,
      listOf py"attributeGroups" py"attributeGroup" xAttributeGroupReference] }
  -- soapfish/xsdspec.py:114-118
  | 12 => { name := py"ComplexContent", mro := [xComplexContent], schema := xsdSchema, fields := [
      { name := py"mixed", kind := .attribute, type := .simple .boolean },
      elem py"extension" xExtension, elem py"restriction" xExtension] }
  -- soapfish/xsdspec.py:121-129
  | 13 => { name := py"XSDComplexType", mro := [xComplexType], schema := xsdSchema, fields := [
      strAttr py"name" false, elem py"sequence" xSequence, elem py"choice" xSequence, elem py"all" xSequence,
      elem py"complexContent" xComplexContent, listOf py"attributes" py"attribute" xAttribute,
      listOf py"attributeGroups" py"attributeGroup" xAttributeGroupReference] }
  -- soapfish/xsdspec.py:132-135
  | 14 => { name := py"Group", mro := [xGroup], schema := xsdSchema, fields := [
      strAttr py"name", elem py"sequence" xSequence] }
  -- soapfish/xsdspec.py:138-140: not listed in SCHEMA
  | 15 => { name := py"Import", mro := [xImport], fields := [
      strAttr py"schemaLocation" false, strAttr py"namespace" false] }
  -- soapfish/xsdspec.py:143-144: not listed in SCHEMA
  | 16 => { name := py"Include", mro := [xInclude], fields := [strAttr py"schemaLocation"] }
  -- soapfish/xsdspec.py:147-160
  | 17 => { name := py"Schema", mro := [xSchema], schema := xsdSchema, fields := [
      strAttr py"targetNamespace",
      enumAttr py"elementFormDefault" [py"qualified", py"unqualified"] false (.atom (.str py"unqualified")),
      listOf py"imports" py"import" xImport, listOf py"includes" py"include" xInclude,
      listOf py"simpleTypes" py"simpleType" xSimpleType, listOf py"groups" py"group" xGroup,
      listOf py"attributeGroups" py"attributeGroup" xAttributeGroup,
      listOf py"complexTypes" py"complexType" xComplexType, listOf py"elements" py"element" xElement] }
  -- soapfish/wsdl11.py:13-16, soapfish/wsdl12.py:7-8
  | 18 => { name := py"SOAP_Binding", mro := [wSoapBinding], fields := [
      enumAttr py"style" [py"document", py"rpc"] false (.atom (.str py"document")), strAttr py"transport"] }
  -- soapfish/wsdl11.py:19-22, soapfish/wsdl12.py:11-12
  | 19 => { name := py"SOAP_Operation", mro := [wSoapOperation], fields := [
      strAttr py"soapAction" false, enumAttr py"style" [py"document", py"rpc"] false] ++
      (match v with
        | .soap11 => []
        | .soap12 => [{ name := py"soapActionRequired", kind := .attribute, type := .simple .boolean,
                        required := false }]) }
  -- soapfish/wsdl11.py:25-30, soapfish/wsdl12.py:15-16
  | 20 => { name := py"SOAP_HeaderFault", mro := [wSoapHeaderFault], fields := [
      strAttr py"message", strAttr py"part", enumAttr py"use" [py"encoded", py"literal"],
      strAttr py"namespace" false, strAttr py"encodingStyle" false] }
  -- soapfish/wsdl11.py:33-39, soapfish/wsdl12.py:19-20
  | 21 => { name := py"SOAP_Header", mro := [wSoapHeader], fields := [
      strAttr py"message", strAttr py"part", enumAttr py"use" [py"encoded", py"literal"],
      strAttr py"namespace" false, strAttr py"encodingStyle" false,
      listOf py"headerfaults" py"headerfault" wSoapHeaderFault (some 0) (some v.bindingNs)] }
  -- soapfish/wsdl11.py:42-47, soapfish/wsdl12.py:23-24
  | 22 => { name := py"SOAP_Body", mro := [wSoapBody], fields := [
      strAttr py"parts" false, enumAttr py"use" [py"encoded", py"literal"], strAttr py"namespace" false,
      strAttr py"encodingStyle" false] }
  -- soapfish/wsdl11.py:50-55, soapfish/wsdl12.py:27-28
  | 23 => { name := py"SOAP_Fault", mro := [wSoapFault], fields := [
      strAttr py"name", enumAttr py"use" [py"encoded", py"literal"], strAttr py"namespace" false,
      strAttr py"encodingStyle" false] }
  -- soapfish/wsdl11.py:58-60, soapfish/wsdl12.py:31-32
  | 24 => { name := py"SOAP_Address", mro := [wSoapAddress], fields := [strAttr py"location"] }
  -- soapfish/wsdl11.py:66-68, soapfish/wsdl12.py:38-39
  | 25 => { name := py"Types", mro := [wTypes], schema := wsdlSchema, fields := [
      listOf py"schemas" py"schema" xSchema none (some nsXsd), documentation] }
  -- soapfish/wsdl11.py:71-74, soapfish/wsdl12.py:42-43
  | 26 => { name := py"Part", mro := [wPart], schema := wsdlSchema, fields := [
      strAttr py"name", strAttr py"element" false, strAttr py"type" false] }
  -- soapfish/wsdl11.py:77-87, soapfish/wsdl12.py:46-47
  | 27 => { name := py"Message", mro := [wMessage], schema := wsdlSchema, fields :=
      match v with
      | .soap11 => [strAttr py"name", listOf py"parts" py"part" wPart (some 0), documentation]
      | .soap12 => [strAttr py"name", documentation, listOf py"parts" py"part" wPart (some 0)] }
  -- soapfish/wsdl11.py:90-92, soapfish/wsdl12.py:50-51
  | 28 => { name := py"Import", mro := [wImport], schema := wsdlSchema, fields := [
      strAttr py"namespace", strAttr py"location"] }
  -- soapfish/wsdl11.py:95-102, soapfish/wsdl12.py:57-60
  | 29 => { name := py"Input", mro := [wInput], schema := wsdlSchema, fields := [
      strAttr py"name" false, strAttr py"message" false, documentation,
      elem py"body" wSoapBody true (some v.bindingNs),
      listOf py"headers" py"header" wSoapHeader (some 0) (some v.bindingNs)] }
  -- soapfish/wsdl11.py:105-112, soapfish/wsdl12.py:63-66
  | 30 => { name := py"Output", mro := [wOutput], schema := wsdlSchema, fields := [
      strAttr py"name" false, strAttr py"message" false, documentation,
      elem py"body" wSoapBody true (some v.bindingNs),
      listOf py"headers" py"header" wSoapHeader (some 0) (some v.bindingNs)] }
  -- soapfish/wsdl11.py:115-121, soapfish/wsdl12.py:69-71
  | 31 => { name := py"Fault", mro := [wFault], schema := wsdlSchema, fields := [
      strAttr py"name", strAttr py"message" false, documentation, elem py"fault" wSoapFault true (some v.bindingNs)] }
  -- soapfish/wsdl11.py:124-132, soapfish/wsdl12.py:74-80
  | 32 => { name := py"Operation", mro := [wOperation], schema := wsdlSchema, fields :=
      match v with
      | .soap11 => [strAttr py"name", elem py"input" wInput false, elem py"output" wOutput false,
          listOf py"faults" py"fault" wFault (some 0), documentation,
          elem py"operation" wSoapOperation false (some v.bindingNs)]
      | .soap12 => [strAttr py"name", documentation, elem py"input" wInput false, elem py"output" wOutput false,
          listOf py"faults" py"fault" wFault (some 0),
          elem py"operation" wSoapOperation false (some v.bindingNs)] }
  -- soapfish/wsdl11.py:135-138, soapfish/wsdl12.py:83-84
  | 33 => { name := py"PortType", mro := [wPortType], schema := wsdlSchema, fields :=
      match v with
      | .soap11 => [strAttr py"name", listOf py"operations" py"operation" wOperation (some 0), documentation]
      | .soap12 => [strAttr py"name", documentation, listOf py"operations" py"operation" wOperation (some 0)] }
  -- soapfish/wsdl11.py:141-148, soapfish/wsdl12.py:87-91
  | 34 => { name := py"Binding", mro := [wBinding], schema := wsdlSchema, fields :=
      match v with
      | .soap11 => [strAttr py"name", strAttr py"type", listOf py"operations" py"operation" wOperation (some 0),
          documentation, elem py"binding" wSoapBinding true (some v.bindingNs)]
      | .soap12 => [strAttr py"name", strAttr py"type", documentation,
          listOf py"operations" py"operation" wOperation (some 0), elem py"binding" wSoapBinding true (some v.bindingNs)] }
  -- soapfish/wsdl11.py:151-157, soapfish/wsdl12.py:94-96
  | 35 => { name := py"Port", mro := [wPort], schema := wsdlSchema, fields := [
      strAttr py"name", strAttr py"binding", documentation, elem py"address" wSoapAddress true (some v.bindingNs)] }
  -- soapfish/wsdl11.py:160-163, soapfish/wsdl12.py:99-100
  | 36 => { name := py"Service", mro := [wService], schema := wsdlSchema, fields :=
      match v with
      | .soap11 => [strAttr py"name", listOf py"ports" py"port" wPort (some 0), documentation]
      | .soap12 => [strAttr py"name", documentation, listOf py"ports" py"port" wPort (some 0)] }
  -- soapfish/wsdl11.py:166-175, soapfish/wsdl12.py:103-109
  | 37 => { name := py"Definitions", mro := [wDefinitions], schema := wsdlSchema, fields :=
      let own := [listOf py"imports" py"import" wImport (some 0), elem py"types" wTypes false,
          listOf py"messages" py"message" wMessage (some 0), listOf py"portTypes" py"portType" wPortType (some 0),
          listOf py"bindings" py"binding" wBinding (some 0), listOf py"services" py"service" wService (some 0)]
      match v with
      | .soap11 => [strAttr py"name" false, strAttr py"targetNamespace" false] ++ own ++ [documentation]
      | .soap12 => [strAttr py"name" false, strAttr py"targetNamespace" false, documentation] ++ own }
  | n => { name := [], mro := [n], fields := [] }

end Soapfish
