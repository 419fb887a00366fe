import Verif.Props.Described
/-
The schemas of the header classes in code generated from WSDL documents (C92).
-/
namespace Soapfish

/-- The schema declares all the elements that the parts refer to. -/
def DeclaresParts (parts : List Val) (schema : Val) : Prop :=
  ∀ p ∈ parts, ∃ reference name items e, HasText p py"element" reference ∧ AfterColon reference name ∧
    ItemsOf schema py"elements" items ∧ e ∈ items ∧ HasText e py"name" name

theorem ItemsOf.unique {v : Val} {n : Str} {a b : List Val} (ha : ItemsOf v n a) (hb : ItemsOf v n b) : a = b := by
  rcases ha with ha | ⟨rfl, ha⟩
  · rcases hb with hb | ⟨rfl, hb⟩
    · exact ha.unique hb
    · exact absurd ha (hb _)
  · rcases hb with hb | ⟨rfl, hb⟩
    · exact absurd hb (ha _)
    · rfl

theorem declares_iff {parts : List Val} (hp : ∀ p ∈ parts, ∃ r, HasText p py"element" r ∧ r ≠ []) (s : Val) :
    ((parts.map (readStr · py"element")).all fun x => (readList s py"elements").any fun e =>
      readStr e py"name" = localPart x) = true ↔ DeclaresParts parts s := by
  rw [List.all_eq_true]
  constructor
  · intro h p hpp
    obtain ⟨r, hr, hne⟩ := hp p hpp
    have := h _ (List.mem_map_of_mem hpp)
    rw [readStr_of hr] at this
    obtain ⟨e, he, hen⟩ := List.any_eq_true.1 this
    have hl : localPart (some r) = some (lastPart ':' r) := by
      cases r with
      | nil => exact absurd rfl hne
      | cons => rfl
    rw [hl] at hen
    exact ⟨r, _, _, e, hr, lastPart_after r, readList_items _ _, he, readStr_some (of_decide_eq_true hen)⟩
  · rintro h x hx
    obtain ⟨p, hpp, rfl⟩ := List.mem_map.1 hx
    obtain ⟨r, n, items, e, hr, hn, hi, he, hen⟩ := h p hpp
    obtain ⟨r', hr', hne⟩ := hp p hpp
    cases hr.unique hr'
    rw [readStr_of hr, List.any_eq_true]
    refine ⟨e, by rw [(readList_items s py"elements").unique hi]; exact he, ?_⟩
    have hl : localPart (some r) = some (lastPart ':' r) := by
      cases r with
      | nil => exact absurd rfl hne
      | cons => rfl
    rw [hl, readStr_of hen, AfterColon.unique hn (lastPart_after r)]
    exact decide_eq_true rfl

section
variable {digest : Str → Str} {ok : Str → Bool} {server : Bool} {v : Version} {d : Val}

theorem headerCode_schema {m operation w : Val} {x : Str} {h : Option PyHeader} {parts : List Val}
    (hv : getMessageHeader d operation x = .ok w) (hc : headerCode digest d m w = .ok h) (hp : HeaderParts d operation x parts)
    (hne : parts ≠ []) (he : ∀ p ∈ parts, ∃ r, HasText p py"element" r ∧ r ≠ []) :
    ∃ H schemas s n, h = some H ∧ SchemasOf d schemas ∧ First (DeclaresParts parts) schemas s ∧ NamespaceOf d s n ∧
      H.schema = py"Schema_" ++ digest n := by
  rcases header_ok hv with ⟨rfl, hno⟩ | ⟨parts', rfl, hp'⟩
  · exact absurd hp (hno parts)
  · cases hp.unique hp'
    cases parts with
    | nil => exact absurd rfl hne
    | cons p ps =>
      obtain ⟨s, hs, hc⟩ := bindI hc
      obtain ⟨fs, hf, hc⟩ := bindI hc
      injection hc with hc
      subst hc
      split at hs
      · rename_i schema hsel
        obtain ⟨b, c, h1, h2, h3⟩ := find_first hsel
        unfold schemaVarOf at hs
        cases hn : (readStr schema py"targetNamespace").or (readStr d py"targetNamespace") with
        | none => rw [hn] at hs; cases hs
        | some n =>
          rw [hn] at hs
          refine ⟨_, _, schema, n, rfl, schemasOf_spec d, ⟨b, c, h1, (declares_iff he _).1 h2, fun y hy hd => ?_⟩,
            namespace_of hn, (Except.ok.inj hs).symm⟩
          have := h3 y hy
          rw [(declares_iff he _).2 hd] at this
          cases this
      · cases hs

/-- **C92 (headers).** If code is generated for a port whose operation has headers that are elements, then the header class
belongs to the first schema of the document that declares all of these elements.  So there is one: from a document with
headers out of different schemas no code is generated. -/
theorem C92_headers {prefixes : List (Option Str)} {n : Nat} {m : PyWsdlModule}
    (hm : wsdlToPy digest ok prefixes n server v d = .ok m) (ports : List Val) (hports : PortsOf d ports)
    (port binding operation : Val) (reference : Str) (operations : List Val) (hport : port ∈ ports)
    (hr : HasText port py"binding" reference) (hb : NamesItem d py"bindings" reference binding)
    (ht : binding.path [py"binding", py"transport"] = some (.atom (.str nsSoapHttp)))
    (hops : ItemsOf binding py"operations" operations) (hop : operation ∈ operations)
    (x : Str) (hx : x = py"input" ∨ x = py"output") (parts : List Val) (hp : HeaderParts d operation x parts)
    (hne : parts ≠ []) (he : ∀ p ∈ parts, ∃ r, HasText p py"element" r ∧ r ≠ []) :
    ∃ schemas s ns, SchemasOf d schemas ∧ First (DeclaresParts parts) schemas s ∧ NamespaceOf d s ns ∧
      ∃ P ∈ m.ports, ∃ M ∈ P.methods, ∃ h ∈ M.headers, h.schema = py"Schema_" ++ digest ns := by
  obtain ⟨_, _, hm⟩ := bindI hm
  obtain ⟨ps, hps, hm⟩ := bindI hm
  injection hm with hm
  subst hm
  have hmem : ∃ service, (service, port) ∈ portsOf d := by
    obtain ⟨services, lists, h1, h2, rfl⟩ := hports
    obtain ⟨l, hl, hpl⟩ := List.mem_flatten.1 hport
    obtain ⟨s, hs, hsl⟩ := h2.mem_right hl
    refine ⟨s, List.mem_flatMap.2 ⟨s, ?_, List.mem_map.2 ⟨port, ?_, rfl⟩⟩⟩
    · rw [(readList_items _ _).unique h1]; exact hs
    · rw [(readList_items _ _).unique hsl]; exact hpl
  obtain ⟨service, hmem⟩ := hmem
  obtain ⟨r, hrp, hpc⟩ := (mapE_all2 hps).mem_left hmem
  obtain ⟨b', r', hr', hb', ⟨rfl, hno⟩ | ⟨P, functions, methods, location, schemas, stub, rfl, _, _, h5, _, _, _, hP⟩⟩ :=
    portCode_binding hpc
  · cases hr.unique hr'
    cases hb.unique hb'
    exact absurd ht hno
  · cases hr.unique hr'
    cases hb.unique hb'
    rw [(readList_items binding py"operations").unique hops] at h5
    obtain ⟨M, hM, hMc⟩ := (mapE_all2 h5).mem_left hop
    obtain ⟨im, _, hMc⟩ := bindI hMc
    obtain ⟨om, _, hMc⟩ := bindI hMc
    obtain ⟨imh, him, hMc⟩ := bindI hMc
    obtain ⟨omh, hom, hMc⟩ := bindI hMc
    obtain ⟨ih, hih, hMc⟩ := bindI hMc
    obtain ⟨oh, hoh, hMc⟩ := bindI hMc
    obtain ⟨input, _, hMc⟩ := bindI hMc
    obtain ⟨output, _, hMc⟩ := bindI hMc
    injection hMc with hMc
    have hPm : P ∈ ps.filterMap id := List.mem_filterMap.2 ⟨_, hrp, rfl⟩
    have hMP : M ∈ P.methods := by rw [hP]; exact hM
    rcases hx with rfl | rfl
    · obtain ⟨H, ss, s, ns, rfl, g1, g2, g3, g4⟩ := headerCode_schema him hih hp hne he
      exact ⟨ss, s, ns, g1, g2, g3, P, hPm, M, hMP, H, by rw [← hMc]; simp, g4⟩
    · obtain ⟨H, ss, s, ns, rfl, g1, g2, g3, g4⟩ := headerCode_schema hom hoh hp hne he
      exact ⟨ss, s, ns, g1, g2, g3, P, hPm, M, hMP, H, by rw [← hMc]; simp, g4⟩

end

namespace Ex

/-- The header class of the document above belongs to its only schema. -/
example : ∃ m schemas s, wsdlToPy digest5 (fun _ => true) [some py"xsd"] 1 false .soap11 (pingDocument [tokenHeader]) = .ok m ∧
    SchemasOf (pingDocument [tokenHeader]) schemas ∧ First (DeclaresParts [elementPart py"token" py"tns:Token"]) schemas s ∧
    ∃ P ∈ m.ports, ∃ M ∈ P.methods, ∃ h ∈ M.headers, h.schema = py"Schema_12345" := by
  obtain ⟨m, hm⟩ : ∃ m, wsdlToPy digest5 (fun _ => true) [some py"xsd"] 1 false .soap11 (pingDocument [tokenHeader]) = .ok m :=
    ⟨_, rfl⟩
  have ac : ∀ n, ':' ∉ n → AfterColon (py"tns:" ++ n) n := fun n hn => ⟨hn, .inr ⟨py"tns", rfl⟩⟩
  obtain ⟨schemas, s, ns, h1, h2, _, h4⟩ := C92_headers hm _
    ⟨_, _, .inl ⟨true, rfl⟩, .cons (.inl ⟨true, rfl⟩) .nil, rfl⟩ _ _ _ py"tns:Soap" _
    (List.mem_cons_of_mem _ (List.mem_cons_self ..)) rfl
    ⟨[_], [], py"Soap", ⟨true, rfl⟩, ac py"Soap" (by decide), rfl, by
      intro b hb
      rw [List.mem_singleton.1 hb]
      intro h
      exact absurd (Val.atom.inj (Option.some.inj (h.symm.trans (rfl : _ = some (txt py"Ftp"))))) (by simp)⟩ rfl
    (.inl ⟨true, rfl⟩) (List.mem_cons_of_mem _ (List.mem_cons_self ..)) py"input" (.inl rfl)
    [elementPart py"token" py"tns:Token"]
    ⟨_, _, rfl, ⟨true, rfl⟩, .cons ⟨py"tns:extra", py"token", _, rfl,
      ⟨[_], [_], py"extra", ⟨true, rfl⟩, ac py"extra" (by decide), rfl, by
        intro b hb
        rw [List.mem_singleton.1 hb]
        intro h
        exact absurd (Val.atom.inj (Option.some.inj (h.symm.trans (rfl : _ = some (txt py"in"))))) (by simp)⟩, rfl,
      ⟨[], [], py"token", ⟨true, rfl⟩, ⟨by decide, .inl rfl⟩, rfl, by simp⟩⟩ .nil⟩ (by simp)
    (by
      intro p hp
      rw [List.mem_singleton.1 hp]
      exact ⟨_, rfl, by simp⟩)
  exact ⟨m, schemas, s, hm, h1, h2, h4⟩

/-- Elements of two schemas: no schema declares both, so that there is no header class. -/
example : headerCode digest5 (obj [(py"types", obj [(py"schemas", .list true [
      obj [(py"targetNamespace", txt py"urn:a"), (py"elements", .list true [obj [(py"name", txt py"A")]])],
      obj [(py"targetNamespace", txt py"urn:b"), (py"elements", .list true [obj [(py"name", txt py"B")]])]])])])
    (message py"in" []) (.list true [elementPart py"x" py"a:A", elementPart py"y" py"b:B"]) = .error .typeError := rfl

end Ex

end Soapfish
