import Verif.Py
/-
Percent encoding of texts in URLs, as clients do it (RFC 3986, RFC 3629).
-/
namespace Soapfish

/-- The UTF-8 bytes of a character (RFC 3629). -/
def utf8 (c : Char) : List Nat :=
  if c.toNat < 0x80 then [c.toNat]
  else if c.toNat < 0x800 then [0xc0 + c.toNat / 64, 0x80 + c.toNat % 64]
  else if c.toNat < 0x10000 then [0xe0 + c.toNat / 4096, 0x80 + c.toNat / 64 % 64, 0x80 + c.toNat % 64]
  else [0xf0 + c.toNat / 262144, 0x80 + c.toNat / 4096 % 64, 0x80 + c.toNat / 64 % 64, 0x80 + c.toNat % 64]

/-- A hexadecimal digit of value `v`, in either case. -/
def IsHex (c : Char) (v : Nat) : Prop :=
  py"0123456789abcdef"[v]? = some c ∨ py"0123456789ABCDEF"[v]? = some c

/-- Bytes written as `%XX`. -/
inductive Percent : List Nat → Str → Prop where
  | nil : Percent [] []
  | byte {a b x y bs s} : IsHex a x → IsHex b y → Percent bs s → Percent ((16 * x + y) :: bs) ('%' :: a :: b :: s)

/-- A form-encoded text: a blank as `+`, any character as the `%XX` of its bytes, and any character but `%` and `+`
as it is. -/
inductive FormEncoded : Str → Str → Prop where
  | nil : FormEncoded [] []
  | blank {s e} : FormEncoded s e → FormEncoded (' ' :: s) ('+' :: e)
  | keep {c s e} : c ≠ '%' → c ≠ '+' → FormEncoded s e → FormEncoded (c :: s) (c :: e)
  | percent {c p s e} : Percent (utf8 c) p → FormEncoded s e → FormEncoded (c :: s) (p ++ e)

end Soapfish
