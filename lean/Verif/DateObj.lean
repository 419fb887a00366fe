import Verif.Simple
/-
Comparing date objects (soapfish/xsd_types.py).
-/
namespace Soapfish

/-- `XSDDate.from_datetime_date` (soapfish/xsd_types.py:31-33) -/
def xsdDateFrom (d : DateV) : Except Exn Atom := mkXSDDate d.year d.month d.day none

/-- `XSDDate.as_datetime_date` (soapfish/xsd_types.py:43-50) -/
def asDatetimeDate (d : DateV) : Except Exn DateV := if d.valid then .ok d else .error .valueError

/-- The attributes `year`, `month`, `day` of a value, if it has them: dates and datetimes do. -/
def attrDay : Atom → Option DateV
  | .xsdDate d _ => some d
  | .date d => some d
  | .datetime d _ _ => some d
  | _ => none

/-- The attribute `tzinfo` of a value, if it has one: datetimes and times do, `datetime.date` does not. -/
def attrTz : Atom → Option (Option Tz)
  | .xsdDate _ tz => some tz
  | .datetime _ _ tz => some tz
  | .time _ tz => some tz
  | _ => none

/-- `XSDDate.__eq__` (soapfish/xsd_types.py:52-56); `datetime.timezone` objects are equal if their offsets are. -/
def xsdDateEq (d : DateV) (tz : Option Tz) (other : Atom) : Bool :=
  match attrDay other, attrTz other with
  | some d', some tz' => d.year == d'.year && d.month == d'.month && d.day == d'.day && tz == tz'
  | _, _ => false

/-- `a == b` where one of them is an XSDDate: Python asks the other one first if it comes first, but classes of the
standard library leave the decision to XSDDate. -/
def dateEq (a b : Atom) : Bool :=
  match a, b with
  | .xsdDate d tz, other => xsdDateEq d tz other
  | other, .xsdDate d tz => xsdDateEq d tz other
  | _, _ => false

end Soapfish
