import Verif.Model.Com
import Verif.Spec.GenCode

/-! What the communication layer should do. -/

namespace Apx

/-- The value last sent through the function of a port, or the initial value of its data element. -/
def valueAfter (f : ComFunc) (hist : List (ComFunc × CVal)) : CVal :=
  hist.foldl (fun x h => if h.1.port = f.port then h.2 else x) f.init

/-- The calls that send another value than the one before, `before` being the calls made already. -/
def changes (before : List (ComFunc × CVal)) : List (ComFunc × CVal) → List ComFunc
  | [] => []
  | (f, v) :: l =>
    if v = valueAfter f before then changes (before ++ [(f, v)]) l else f :: changes (before ++ [(f, v)]) l

/-- The bytes of a port in the buffer of the provide ports. -/
def Generated.portBytes (g : Generated) (port : Str) (buf : Bytes) : Option Bytes :=
  (g.provide.find? fun s => s.name = port).map fun s => (buf.drop s.offset).take s.packLen

/-- A function of the upper layer that belongs to a provide port of a type for which code can be emitted (C67). -/
structure Sends (g : Generated) (sfx : Str) (f : ComFunc) (p : Port) (d : Elem) : Prop where
  port : p ∈ g.node.provides
  name : p.name = f.port
  elem : p.elem.resolveDataElement = .ok d
  supported : d.CSupported
  suffix : sfx = [] ∨ d.NoNested
  reference : f.complex = d.ByRef

end Apx
