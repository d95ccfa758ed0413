import Verif.Model.FileManager

/-! Specification vocabulary for C72: which received messages make the manager raise. -/

namespace Apx.Manager
open Apx.FileMap
variable {H : Type}

/-- The message has a header with address `a`, followed by `body`. -/
def AddressedTo (msg : Bytes) (a : Nat) (body : Bytes) : Prop :=
  ∃ k more, 0 < k ∧ Rmf.unpackHeader msg = (k, some a, more) ∧ body = msg.drop k

/-- The message is the command `code`: it is addressed to the command area and its first four bytes
are the code. -/
def IsCommand (bo : Char) (code : Nat) (msg body : Bytes) : Prop :=
  AddressedTo msg Rmf.cmdStartAddr body ∧ 4 ≤ body.length ∧ unpackUInt bo (body.take 4) = code

/-- The bytes of the name in a FILE_INFO. -/
def nameBytes (body : Bytes) : Bytes := (body.drop 48).takeWhile (· ≠ 0)

/-- The length in a FILE_INFO. -/
def infoLength (bo : Char) (body : Bytes) : Nat := unpackUInt bo ((body.drop 8).take 4)

/-- The messages that make a manager with the byte order, the requested files and the remote files of
`s` raise, and what they make it raise. -/
inductive Fatal (s : Mgr H) (msg : Bytes) : PyErr → Prop
  /-- an address above the command address -/
  | beyond (a : Nat) (body : Bytes) (h : AddressedTo msg a body) (ha : Rmf.cmdStartAddr < a) :
      Fatal s msg .valueError
  /-- a FILE_INFO of less than 48 bytes -/
  | infoShort (body : Bytes) (h : IsCommand s.byteOrder Rmf.cmdFileInfo msg body) (hl : body.length < 48) :
      Fatal s msg .attributeError
  /-- a FILE_INFO whose name is not UTF-8 -/
  | infoName (body : Bytes) (h : IsCommand s.byteOrder Rmf.cmdFileInfo msg body) (hl : 48 ≤ body.length)
      (hn : ∀ name, utf8Encode name ≠ nameBytes body) : Fatal s msg .unicodeError
  /-- a FILE_INFO of a file that is not requested (any more) -/
  | infoUnknown (body : Bytes) (name : Str) (h : IsCommand s.byteOrder Rmf.cmdFileInfo msg body)
      (hl : 48 ≤ body.length) (hn : utf8Encode name = nameBytes body)
      (hr : s.requested.lookup name = none) : Fatal s msg .assertionError
  /-- a FILE_INFO of a requested file with another length -/
  | infoOther (body : Bytes) (name : Str) (i : Nat) (o : FObj)
      (h : IsCommand s.byteOrder Rmf.cmdFileInfo msg body)
      (hl : 48 ≤ body.length) (hn : utf8Encode name = nameBytes body)
      (hr : s.requested.lookup name = some i) (ho : s.files[i]? = some o)
      (hlen : o.length ≠ infoLength s.byteOrder body) : Fatal s msg .nameError
  /-- a FILE_OPEN that is not 8 bytes long -/
  | openLength (body : Bytes) (h : IsCommand s.byteOrder Rmf.cmdFileOpen msg body) (hl : body.length ≠ 8) :
      Fatal s msg .structError
  /-- a FILE_CLOSE of 8 bytes -/
  | close (body : Bytes) (h : IsCommand s.byteOrder Rmf.cmdFileClose msg body) (hl : body.length = 8) :
      Fatal s msg .nameError
  /-- a FILE_CLOSE of any other length -/
  | closeLength (body : Bytes) (h : IsCommand s.byteOrder Rmf.cmdFileClose msg body) (hl : body.length ≠ 8) :
      Fatal s msg .structError
  /-- data for an open remote file, inside it, when the file is not an `InputFile` -/
  | target (x : Nat) (body : Bytes) (f : FileEnt) (o : FObj) (a : Int)
      (h : AddressedTo msg x body) (hx : x < Rmf.cmdStartAddr)
      (hf : (s.remoteMap.view s.files).findByAddress x = some f) (ho : s.files[f.id]? = some o)
      (hopen : o.isOpen = true) (ha : o.address = some a) (h1 : a ≤ x) (h2 : x + body.length ≤ a + o.length)
      (hk : o.kind ≠ .input) : Fatal s msg .typeError

end Apx.Manager
