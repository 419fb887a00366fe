import Verif.Paths
import Verif.Run
/-
The command line programs (soapfish/xsd2py.py:159-180, soapfish/wsdl2py.py:111-139, soapfish/py2xsd.py:259-277,
soapfish/py2wsdl.py:126-145) and `open_document` (soapfish/utils.py:30-37).  Options and arguments are as `argparse` gives them;
bytes are characters; files are lists of names from the root, and links are not followed.
-/
namespace Soapfish

/-- The files there are and what has been written to the standard output. -/
structure Disk where
  file : List Str → Option Str
  stdout : Str := []

def Disk.set (d : Disk) (f : List Str) (text : Str) : Disk := { d with file := fun g => if g = f then some text else d.file g }

/-- How a program ends: with a number for the shell or with an exception. -/
inductive Ended where
  | exit (n : Nat)
  | raised (e : Exn)
  deriving DecidableEq

/-- `argparse.FileType('wb')`: the file is opened, and emptied, when the arguments are parsed; '-' is the standard output
(soapfish/xsd2py.py:168-170).  `none`: it cannot be opened. -/
def openOutput (wd : Str) (writable : List Str → Bool) (d : Disk) : Option Str → Option (Disk × Option (List Str))
  | none => some (d, none)
  | some p =>
    if p = py"-" then some (d, none)
    else if writable (absParts wd p) then some (d.set (absParts wd p) [], some (absParts wd p))
    else none

/-- `open_document` (soapfish/utils.py:30-37); `get` is `requests.get(path).content`, `missing` what opening a missing file raises. -/
def openDocument (wd : Str) (get : Str → Except Exn Str) (missing : Exn) (d : Disk) (p : Str) : Except Exn Str :=
  if hasSub py"://" p then get p
  else match d.file (absParts wd p) with
    | some t => .ok t
    | none => .error missing

/-- White space for `bytes.strip`. -/
def byteSpace (c : Char) : Bool := c ∈ [' ', '\t', '\n', '\r', Char.ofNat 11, Char.ofNat 12]

/-- `bytes.strip` -/
def stripBytes (s : Str) : Str := ((s.dropWhile byteSpace).reverse.dropWhile byteSpace).reverse

/-- `opt.output.write(...)` -/
def writeOutput (d : Disk) : Option (List Str) → Str → Disk
  | none, t => { d with stdout := d.stdout ++ t }
  | some f, t => d.set f t

/-- `main` of `xsd2py` and `wsdl2py`: `generate` is `generate_code_from_xsd(xml, encoding='utf-8', cwd=cwd)` or
`generate_code_from_wsdl(xml, target, use_wsa, cwd=cwd)` (soapfish/xsd2py.py:159-180, soapfish/wsdl2py.py:111-139). -/
def codeMain (wd : Str) (writable : List Str → Bool) (get : Str → Except Exn Str) (missing : Exn)
    (generate : Str → Str → Except Exn Str) (stdin : Str) (d : Disk) (input : Str) (output : Option Str) : Disk × Ended :=
  match openOutput wd writable d output with
  | none => (d, .exit 2)
  | some (d1, out) =>
    match (if input = py"-" then .ok stdin else openDocument wd get missing d1 input) with
    | .error e => (d1, .raised e)
    | .ok xml =>
      let cwd := dirName (if hasSub py"://" input then input else absPath wd input)
      match generate xml cwd with
      | .error e => (d1, .raised e)
      | .ok code => (writeOutput d1 out (stripBytes code), .exit 0)

/-- `main` of `py2xsd` and `py2wsdl`: `load` executes the text of a module and gives its variables, `name` is the variable the program
wants (`Schema` or `SERVICE`), `generate` gives the document (soapfish/py2xsd.py:259-277, soapfish/py2wsdl.py:126-145). -/
def moduleMain {V : Type} (wd : Str) (writable : List Str → Bool) (missing : Exn) (load : Str → Except Exn (List (Str × V)))
    (name : Str) (generate : V → Except Exn Str) (d : Disk) (module : Str) (output : Option Str) : Disk × Ended :=
  match openOutput wd writable d output with
  | none => (d, .exit 2)
  | some (d1, out) =>
    match d1.file (absParts wd module) with
    | none => (d1, .raised missing)
    | some text =>
      match load text with
      | .error e => (d1, .raised e)
      | .ok vars =>
        match vars.find? fun p => p.1 = name with
        | none => (d1, .raised .attributeError)
        | some v =>
          match generate v.2 with
          | .error e => (d1, .raised e)
          | .ok document => (writeOutput d1 out document, .exit 0)

end Soapfish
