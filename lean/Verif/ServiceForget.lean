import Verif.Spec.Unread
import Verif.ServiceCode
import Verif.DescribeLemmas
import Verif.WsdlLookup
import Verif.Props.Inline
/-
Descriptions that are the same, apart from what is never looked at, give the same code (soapfish/wsdl2py.py,
soapfish/templates/wsdl.jinja2).
-/
namespace Soapfish

local notation "F" => Val.forget

theorem forgetList_map (l : List Val) : forgetList l = l.map F := by
  induction l with
  | nil => rfl
  | cons a as ih => simp [forgetList, ih]

theorem forgetFields_get? (fs : List (Str × Val)) (n : Str) (hn : n ∉ unread) :
    Dict.get? (forgetFields fs) n = (Dict.get? fs n).map F := by
  induction fs with
  | nil => rfl
  | cons p fs ih =>
    obtain ⟨k, v⟩ := p
    rw [forgetFields]
    split
    · next hk =>
      rw [ih, Dict.get?]
      rw [if_neg fun h : k = n => hn (h ▸ hk)]
    · simp only [forgetPair, Dict.get?, ih]
      split <;> rfl

theorem readAttr_forget (v : Val) (n : Str) (hn : n ∉ unread) : readAttr (F v) n = (readAttr v n).map F := by
  cases v with
  | inst c fs x => exact forgetFields_get? fs n hn
  | _ => rfl

theorem readStr_forget (v : Val) (n : Str) (hn : n ∉ unread) : readStr (F v) n = readStr v n := by
  unfold readStr
  rw [readAttr_forget _ _ hn]
  cases readAttr v n with
  | none => rfl
  | some w => cases w <;> rfl

theorem readInt_forget (v : Val) (n : Str) (hn : n ∉ unread) : readInt (F v) n = readInt v n := by
  unfold readInt
  rw [readAttr_forget _ _ hn]
  cases readAttr v n with
  | none => rfl
  | some w => cases w <;> rfl

theorem readBound_forget (v : Val) (n : Str) (hn : n ∉ unread) : readBound (F v) n = readBound v n := by
  unfold readBound
  rw [readAttr_forget _ _ hn]
  cases readAttr v n with
  | none => rfl
  | some w => cases w <;> rfl

theorem readBool_forget (v : Val) (n : Str) (hn : n ∉ unread) : readBool (F v) n = readBool v n := by
  unfold readBool
  rw [readAttr_forget _ _ hn]
  cases readAttr v n with
  | none => rfl
  | some w => cases w <;> rfl

theorem readChild_forget (v : Val) (n : Str) (hn : n ∉ unread) :
    readChild (F v) n = (readChild v n).map F := by
  unfold readChild
  rw [readAttr_forget _ _ hn]
  cases readAttr v n with
  | none => rfl
  | some w => cases w <;> rfl

theorem readList_forget (v : Val) (n : Str) (hn : n ∉ unread) :
    readList (F v) n = (readList v n).map F := by
  unfold readList
  rw [readAttr_forget _ _ hn]
  cases readAttr v n with
  | none => rfl
  | some w => cases w <;> simp [Val.forget, forgetList_map]

theorem readFacet_forget (v : Val) (n : Str) (hn : n ∉ unread) : readFacet (F v) n = readFacet v n := by
  unfold readFacet
  rw [readChild_forget _ _ hn]
  cases readChild v n with
  | none => rfl
  | some w => simp (discharger := decide) [readStr_forget]

theorem readRestriction_forget (v : Val) : readRestriction (F v) = readRestriction v := by
  simp (discharger := decide) only [readRestriction, readStr_forget, readList_forget, readFacet_forget, List.map_map]
  congr
  funext w
  exact readStr_forget w _ (by decide)

theorem optMap_forget {α : Type} {f : Val → α} (hf : ∀ v, f (F v) = f v) (o : Option Val) :
    (o.map F).map f = o.map f := by
  cases o with
  | none => rfl
  | some v => simp [hf]

theorem listMap_forget {α : Type} {f : Val → α} (hf : ∀ v, f (F v) = f v) (l : List Val) :
    (l.map F).map f = l.map f := by
  rw [List.map_map]
  exact List.map_congr_left fun v _ => hf v

theorem strMap_forget (n : Str) (hn : n ∉ unread) (l : List Val) :
    (l.map F).map (fun v => readStr v n) = l.map fun v => readStr v n :=
  listMap_forget (fun v => readStr_forget v n hn) l

theorem readSimple_forget (v : Val) : readSimple (F v) = readSimple v := by
  simp (discharger := decide) only [readSimple, readStr_forget, readChild_forget, optMap_forget readRestriction_forget, Option.isSome_map]

theorem readElement_forget (v : Val) : readElement (F v) = readElement v := by
  simp (discharger := decide) only [readElement, readStr_forget, readInt_forget, readBound_forget, readBool_forget, readChild_forget,
    optMap_forget readSimple_forget]

theorem readAttribute_forget (v : Val) : readAttribute (F v) = readAttribute v := by
  simp (discharger := decide) only [readAttribute, readStr_forget, readChild_forget, Option.isSome_map]

theorem readElements_forget (v : Val) : readElements (F v) = readElements v := by
  simp (discharger := decide) only [readElements, readList_forget, listMap_forget readElement_forget]

theorem readContent_forget (v : Val) : readContent (F v) = readContent v := by
  simp (discharger := decide) only [readContent, readList_forget, readChild_forget, optMap_forget readElements_forget,
    listMap_forget readAttribute_forget, strMap_forget]

theorem readDerivation_forget (v : Val) : readDerivation (F v) = readDerivation v := by
  simp (discharger := decide) only [readDerivation, readChild_forget]
  rw [optMap_forget, optMap_forget] <;> (intro w; simp (discharger := decide) only [readStr_forget, readContent_forget])

theorem readComplex_forget (v : Val) : readComplex (F v) = readComplex v := by
  simp (discharger := decide) only [readComplex, readStr_forget, readContent_forget, readChild_forget, optMap_forget readDerivation_forget]

theorem readTop_forget (v : Val) : readTop (F v) = readTop v := by
  simp (discharger := decide) only [readTop, readStr_forget, readChild_forget, optMap_forget readComplex_forget, Option.isSome_map]

theorem readSchema_forget (v : Val) : readSchema (F v) = readSchema v := by
  simp (discharger := decide) only [readSchema, readStr_forget, readList_forget, strMap_forget,
    listMap_forget readSimple_forget, listMap_forget readComplex_forget, listMap_forget readTop_forget]
  congr 1
  · refine listMap_forget (fun w => ?_) _
    simp (discharger := decide) only [readStr_forget, readList_forget, listMap_forget readAttribute_forget]
  · refine listMap_forget (fun w => ?_) _
    simp (discharger := decide) only [readStr_forget, readChild_forget, optMap_forget readElements_forget]

/-- The result, changed by a function. -/
def mapOk {α β : Type} (f : α → β) : Except Exn α → Except Exn β
  | .ok a => .ok (f a)
  | .error e => .error e

theorem mapOk_bind {α β γ : Type} (f : α → β) (g : β → Except Exn γ) (x : Except Exn α) :
    (mapOk f x >>= g) = (x >>= fun a => g (f a)) := by cases x <;> rfl

theorem okE_bind {α β : Type} (a : α) (f : α → Except Exn β) : (Except.ok a >>= f) = f a := rfl

theorem getA_forget (v : Val) (n : Str) (hn : n ∉ unread) : (F v).getA n = mapOk F (v.getA n) := by
  cases v with
  | inst c fs x =>
    simp (discharger := decide) only [Val.forget, Val.getA, getAttr, forgetFields_get? _ _ hn]
    cases Dict.get? fs n <;> rfl
  | _ => rfl

theorem isNone_forget (v : Val) : (F v).isNone = v.isNone := by
  cases v <;> rfl

theorem findNamed_forget (l : List Val) (n : Str) : findNamed (l.map F) n = mapOk F (findNamed l n) := by
  induction l with
  | nil => rfl
  | cons u l ih =>
    simp (discharger := decide) only [List.map_cons, findNamed, getA_forget]
    cases u.getA py"name" with
    | error e => rfl
    | ok w =>
      cases w with
      | atom a =>
        cases a with
        | str s =>
          show (if s = n then Except.ok (F u) else findNamed (l.map F) n) = mapOk F (if s = n then Except.ok u else findNamed l n)
          rw [ih]
          split <;> rfl
        | _ => exact ih
      | _ => exact ih

theorem getByName_forget (items full : Val) : getByName (F items) (F full) = mapOk F (getByName items full) := by
  cases items with
  | list t is =>
    cases full with
    | atom a =>
      cases a with
      | str s => simp (discharger := decide) only [Val.forget, getByName, forgetList_map]; exact findNamed_forget is _
      | _ => rfl
    | _ => rfl
  | _ => cases full <;> rfl

theorem getMessageObject_forget (d b o : Val) (x : Str) (hx : x ∉ unread) :
    getMessageObject (F d) (F b) (F o) x = mapOk F (getMessageObject d b o x) := by
  unfold getMessageObject
  simp (discharger := decide) only [getA_forget, mapOk_bind, getByName_forget]
  cases d.getA py"portTypes" with
  | error e => rfl
  | ok pts =>
  cases b.getA py"type" with
  | error e => rfl
  | ok ty =>
  simp (discharger := decide) only [okE_bind]
  cases getByName pts ty with
  | error e => rfl
  | ok pt =>
  simp (discharger := decide) only [okE_bind]
  cases pt.getA py"operations" with
  | error e => rfl
  | ok ops =>
  cases o.getA py"name" with
  | error e => rfl
  | ok nm =>
  simp (discharger := decide) only [okE_bind]
  cases getByName ops nm with
  | error e => rfl
  | ok pto =>
  simp (discharger := decide) only [okE_bind]
  rw [getA_forget _ _ hx]
  cases pto.getA x with
  | error e => rfl
  | ok obj =>
  simp (discharger := decide) only [mapOk, isNone_forget]
  split
  · rfl
  · simp (discharger := decide) only [getA_forget, mapOk_bind, getByName_forget]
    cases d.getA py"messages" with
    | error e => rfl
    | ok ms =>
    cases obj.getA py"message" with
    | error e => rfl
    | ok mn =>
    simp (discharger := decide) only [okE_bind]
    cases getByName ms mn <;> rfl

theorem mapE_forget {f g : Val → Except Exn Val} (h : ∀ v, f (F v) = mapOk F (g v)) (l : List Val) :
    mapE f (l.map F) = mapOk (List.map F) (mapE g l) := by
  induction l with
  | nil => rfl
  | cons u l ih =>
    simp (discharger := decide) only [List.map_cons, mapE, h, ih]
    cases g u with
    | error e => rfl
    | ok w => cases mapE g l <;> rfl

theorem mapE_forget' {α : Type} {f g : Val → Except Exn α} (h : ∀ v, f (F v) = g v) (l : List Val) :
    mapE f (l.map F) = mapE g l := by
  induction l with
  | nil => rfl
  | cons u l ih => simp (discharger := decide) only [List.map_cons, mapE, h, ih]

theorem getMessageHeader_forget (d o : Val) (x : Str) (hx : x ∉ unread) :
    getMessageHeader (F d) (F o) x = mapOk F (getMessageHeader d o x) := by
  unfold getMessageHeader
  rw [getA_forget _ _ hx]
  cases o.getA x with
  | error e => rfl
  | ok obj =>
  simp (discharger := decide) only [mapOk, isNone_forget]
  split
  · rfl
  · rw [getA_forget _ _ (by decide), mapOk_bind]
    cases obj.getA py"headers" with
    | error e => rfl
    | ok hs =>
    cases hs with
    | list t hs =>
      simp (discharger := decide) only [okE_bind, Val.forget, forgetList_map]
      rw [mapE_forget (g := fun h => do
          let m ← getByName (← d.getA py"messages") (← h.getA py"message")
          getByName (← m.getA py"parts") (← h.getA py"part"))]
      · cases mapE (fun h => do
          let m ← getByName (← d.getA py"messages") (← h.getA py"message")
          getByName (← m.getA py"parts") (← h.getA py"part")) hs with
        | error e => rfl
        | ok r => simp (discharger := decide) only [mapOk, okE_bind, Val.forget, forgetList_map]
      · intro h
        simp (discharger := decide) only [getA_forget, mapOk_bind, getByName_forget]
        cases d.getA py"messages" with
        | error e => rfl
        | ok ms =>
        cases h.getA py"message" with
        | error e => rfl
        | ok mn =>
        simp (discharger := decide) only [okE_bind]
        cases getByName ms mn with
        | error e => rfl
        | ok m =>
        simp (discharger := decide) only [okE_bind]
        cases m.getA py"parts" with
        | error e => rfl
        | ok ps =>
        cases h.getA py"part" with
        | error e => rfl
        | ok p => rfl
    | _ => rfl

theorem onlyPart_forget (m : Val) : onlyPart (F m) = mapOk F (onlyPart m) := by
  unfold onlyPart
  rw [isNone_forget, readList_forget _ _ (by decide)]
  split
  · rfl
  · rcases readList m py"parts" with _ | ⟨p, _ | ⟨q, l⟩⟩ <;> rfl

theorem partElement_forget (m : Val) : partElement (F m) = partElement m := by
  unfold partElement
  rw [onlyPart_forget, mapOk_bind]
  simp (discharger := decide) only [readStr_forget]

theorem paramCode_forget (m : Val) : paramCode (F m) = paramCode m := by
  unfold paramCode
  simp (discharger := decide) only [onlyPart_forget, mapOk_bind, readStr_forget, readList_forget, List.map_eq_nil_iff]

theorem headerField_forget (p : Val) : headerField (F p) = headerField p := by
  unfold headerField
  simp (discharger := decide) only [readStr_forget]

theorem schemasOf_forget (d : Val) : schemasOf (F d) = (schemasOf d).map F := by
  unfold schemasOf
  rw [readChild_forget _ _ (by decide)]
  cases readChild d py"types" with
  | none => rfl
  | some t => simp (discharger := decide) [readList_forget]

theorem schemaVarOf_forget (digest : Str → Str) (d s : Val) : schemaVarOf digest (F d) (F s) = schemaVarOf digest d s := by
  unfold schemaVarOf
  simp (discharger := decide) only [readStr_forget]

theorem schemaSelect_forget (l : List Val) (es : List (Option Str)) :
    schemaSelect (l.map F) es = (schemaSelect l es).map F := by
  unfold schemaSelect
  rw [List.find?_map]
  congr 1
  refine congrArg (fun p => List.find? p l) ?_
  funext s
  simp (discharger := decide) only [Function.comp_def, readList_forget, List.any_map, readStr_forget]

theorem headerCode_forget (digest : Str → Str) (d m h : Val) :
    headerCode digest (F d) (F m) (F h) = headerCode digest d m h := by
  cases h with
  | list t ps =>
    cases ps with
    | nil => rfl
    | cons p ps =>
      simp (discharger := decide) only [Val.forget, forgetList_map, List.map_cons, headerCode, schemasOf_forget, schemaSelect_forget, readStr_forget,
        isNone_forget, List.map_map, Function.comp_def]
      have e : mapE headerField (F p :: ps.map F) = mapE headerField (p :: ps) :=
        mapE_forget' headerField_forget (p :: ps)
      rw [e]
      cases schemaSelect (schemasOf d) (readStr p py"element" :: ps.map fun x => readStr x py"element") with
      | none => rfl
      | some s => simp (discharger := decide) only [Option.map_some, schemaVarOf_forget]
  | _ => rfl

theorem soapActionText_forget (o : Val) : soapActionText (F o) = soapActionText o := by
  unfold soapActionText
  rw [readChild_forget _ _ (by decide)]
  cases readChild o py"operation" with
  | none => rfl
  | some w => simp (discharger := decide) only [Option.map_some, readStr_forget]

theorem styleText_forget (o : Val) : styleText (F o) = styleText o := by
  unfold styleText
  rw [readChild_forget _ _ (by decide)]
  cases readChild o py"operation" with
  | none => rfl
  | some w => simp (discharger := decide) only [Option.map_some, readStr_forget]

theorem methodCode_forget (digest : Str → Str) (server : Bool) (d b o : Val) :
    methodCode digest server (F d) (F b) (F o) = methodCode digest server d b o := by
  unfold methodCode
  simp (discharger := decide) only [getMessageObject_forget, getMessageHeader_forget, mapOk_bind, headerCode_forget, paramCode_forget, readStr_forget,
    soapActionText_forget, styleText_forget]

theorem functionCode_forget (d b o : Val) : functionCode (F d) (F b) (F o) = functionCode d b o := by
  unfold functionCode
  simp (discharger := decide) only [getMessageObject_forget, mapOk_bind, partElement_forget, readStr_forget]

theorem callCode_forget (d b o : Val) : callCode (F d) (F b) (F o) = callCode d b o := by
  unfold callCode
  simp (discharger := decide) only [getMessageObject_forget, mapOk_bind, partElement_forget, readStr_forget]

theorem addressOf_forget (p : Val) : addressOf (F p) = addressOf p := by
  unfold addressOf
  rw [readChild_forget _ _ (by decide)]
  cases readChild p py"address" with
  | none => rfl
  | some w => simp (discharger := decide) only [Option.map_some, Option.bind_some, readStr_forget]

theorem regexComment_forget (ok : Str → Bool) (s : Val) : regexComment ok (F s) = regexComment ok s := by
  unfold regexComment
  rw [readList_forget _ _ (by decide), List.head?_map]
  cases (readList s py"ports").head? with
  | none => rfl
  | some p => simp (discharger := decide) only [Option.map_some, Option.bind_some, addressOf_forget]

theorem stubCode_forget (ok : Str → Bool) (d b p : Val) : stubCode ok (F d) (F b) (F p) = stubCode ok d b p := by
  unfold stubCode
  simp (discharger := decide) only [addressOf_forget, readList_forget, mapE_forget' (callCode_forget d b)]

theorem portCode_forget (digest : Str → Str) (ok : Str → Bool) (server : Bool) (v : Version) (d s p : Val) :
    portCode digest ok server v (F d) (F s) (F p) = portCode digest ok server v d s p := by
  unfold portCode
  simp (discharger := decide) only [getA_forget, mapOk_bind, getByName_forget]
  refine bind_congr fun bs => bind_congr fun bn => bind_congr fun b => ?_
  have h1 : ((readChild (F b) py"binding").bind (readStr · py"transport")) = (readChild b py"binding").bind (readStr · py"transport") := by
    rw [readChild_forget _ _ (by decide)]
    cases readChild b py"binding" with
    | none => rfl
    | some w => simp (discharger := decide) only [Option.map_some, Option.bind_some, readStr_forget]
  simp (discharger := decide) only [h1, readList_forget, mapE_forget' (functionCode_forget d b), mapE_forget' (methodCode_forget digest server d b),
    addressOf_forget, schemasOf_forget, mapE_forget' (schemaVarOf_forget digest d), regexComment_forget, stubCode_forget, readStr_forget]

/-- Descriptions that are the same give the same code. -/
theorem wsdlToPy_forget (digest : Str → Str) (ok : Str → Bool) (prefixes : List (Option Str)) (n : Nat) (server : Bool) (v : Version)
    (d : Val) : wsdlToPy digest ok prefixes n server v (F d) = wsdlToPy digest ok prefixes n server v d := by
  unfold wsdlToPy
  have h : portsOf (F d) = (portsOf d).map fun p => (F p.1, F p.2) := by
    simp (discharger := decide) only [portsOf, readList_forget, List.flatMap_map, List.map_flatMap, List.map_map, Function.comp_def]
  have hm : ∀ l : List (Val × Val),
      mapE (fun p : Val × Val => portCode digest ok server v (F d) p.1 p.2) (l.map fun p => (F p.1, F p.2)) =
        mapE (fun p : Val × Val => portCode digest ok server v d p.1 p.2) l := by
    intro l
    induction l with
    | nil => rfl
    | cons p l ih => simp (discharger := decide) only [List.map_cons, mapE, portCode_forget, ih]
  simp (discharger := decide) only [h, hm, readStr_forget, schemasOf_forget, listMap_forget readSchema_forget]

mutual
theorem forget_erase (v : Val) : (v.eraseWith true).forget = v.forget := by
  match v with
  | .nil => rfl
  | .atom a => rfl
  | .list t is => simp only [Val.eraseWith, Val.forget, forgetList_erase is]
  | .inst c fs x => simp only [Val.eraseWith, Val.forget, forgetFields_erase fs]
theorem forgetList_erase (l : List Val) : forgetList (eraseList true l) = forgetList l := by
  match l with
  | [] => rfl
  | v :: r => simp only [eraseList, forgetList, forget_erase v, forgetList_erase r]
theorem forgetFields_erase (l : List (Str × Val)) : forgetFields (eraseFields true l) = forgetFields l := by
  match l with
  | [] => rfl
  | (k, v) :: r => simp only [eraseFields, erasePair, forgetFields, forgetPair, forget_erase v, forgetFields_erase r]
end

theorem wsdlToPy_same {digest : Str → Str} {ok : Str → Bool} {prefixes : List (Option Str)} {n : Nat} {server : Bool} {v : Version}
    {d d' : Val} (h : d.Same d') : wsdlToPy digest ok prefixes n server v d = wsdlToPy digest ok prefixes n server v d' := by
  rw [← wsdlToPy_forget digest ok prefixes n server v d, ← wsdlToPy_forget digest ok prefixes n server v d', ← forget_erase d,
    ← forget_erase d', show d.eraseWith true = d'.eraseWith true from h]

end Soapfish
