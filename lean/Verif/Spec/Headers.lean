import Verif.Spec.Paired
/-
Vocabulary for stating what becomes of the headers of a call.
-/
namespace Soapfish

/-- A method that computes the object and the header of its response from the header of the request and its parameter:
`return SOAPResponse(body(request.soap_header, param), soap_header=header(request.soap_header, param))`. -/
def Computes (m : Method) (body header : Val → Val → Val) : Prop :=
  m.function = some fun r p => .get r fun q =>
    .ret (.response (mkResponse (.val (body q.soapHeader p)) (header q.soapHeader p)))

/-- A header object of a program with classes `T`, for a program that reads headers with the class `cls'`: None, or an
object that survives, of a class that goes with `cls'`. -/
def HeaderSent (R : ClsId → ClsId → Prop) (T : Table) (N : Nat) (cls' : Option ClsId) (header : Val) : Prop :=
  header = Val.none ∨ ∃ c c', R c c' ∧ cls' = some c' ∧ Survives T N (.complex c) header

end Soapfish
