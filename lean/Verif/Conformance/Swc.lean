import Verif.Model.Import
import Verif.Spec.Autosar
import Verif.Conformance.Text

/-!
The unit tests of the repository, run on the model: AUTOSAR components (/repo/tests/node_test.py,
test_autosar_ports).

The workspace is the one the test makes with the `autosar` package: every object under its full reference,
a value table as a computation method under '/DataType/DataTypeSemantics/', integer types with a value table of
four entries with the limits 0 and 3.
-/

namespace Apx.Conformance

/-- The types of the workspace: name and limits, and the texts of the value table. -/
def swcTypes : List (String × AType × List String) :=
  [("EngineSpeed_T", .int 0 65535, []), ("VehicleSpeed_T", .int 0 65535, []), ("Percent_T", .int 0 255, []),
   ("CoolantTemp_T", .int 0 255, []),
   ("InactiveActive_T", .int 0 3, ["InactiveActive_Inactive", "InactiveActive_Active", "InactiveActive_Error",
     "InactiveActive_NotAvailable"]),
   ("OnOff_T", .int 0 3, ["OnOff_Off", "OnOff_On", "OnOff_Error", "OnOff_NotAvailable"])]

/-- The ports: name, type, init value, whether it is a provide port. -/
def swcPorts : List (String × String × Int × Bool) :=
  [("EngineSpeed", "EngineSpeed_T", 65535, true), ("VehicleSpeed", "VehicleSpeed_T", 65535, true),
   ("FuelLevel", "Percent_T", 255, false), ("CoolantTemp", "CoolantTemp_T", 255, false),
   ("ParkBrakeState", "InactiveActive_T", 3, false), ("MainBeamState", "OnOff_T", 3, false)]

/-- Everything in the workspace. -/
def swcItems : List (String × AItem) :=
  (swcTypes.map fun t => ("/DataType/" ++ t.1, .dataType t.1.toList t.2.1)) ++
  (swcTypes.map fun t => ("/DataType/DataTypeSemantics/" ++ t.1,
    if t.2.2 = [] then .other else .compuConst (t.2.2.mapIdx fun i s => ⟨i, i, s.toList⟩))) ++
  (swcPorts.map fun p => ("/Constant/" ++ p.1 ++ "_IV", .constant (.int p.2.2.1))) ++
  (swcPorts.map fun p => ("/PortInterface/" ++ p.1 ++ "_I", .senderReceiver [("/DataType/" ++ p.2.1).toList]))

/-- The workspace. -/
def swcWs : Workspace := fun ref => (swcItems.map fun i => (i.1.toList, i.2)).lookup ref

/-- The component. -/
def swc : AComponent :=
  let make (p : String × String × Int × Bool) : APort :=
    ⟨p.1.toList, ("/PortInterface/" ++ p.1 ++ "_I").toList, [.dataElement (some ("/Constant/" ++ p.1 ++ "_IV").toList)]⟩
  ⟨"TestSWC".toList, (swcPorts.filter fun p => !p.2.2.2).map make, (swcPorts.filter fun p => p.2.2.2).map make⟩

-- test_autosar_ports
example : (do
    let n ← Node.fromSwc exactCeilLog swcWs swc none
    n.lines false) =
    .ok (List.map String.toList ["N\"TestSWC\"", "T\"EngineSpeed_T\"S", "T\"VehicleSpeed_T\"S", "T\"Percent_T\"C",
      "T\"CoolantTemp_T\"C",
      "T\"InactiveActive_T\"C(0,3):VT(\"InactiveActive_Inactive\",\"InactiveActive_Active\",\"InactiveActive_Error\",\"InactiveActive_NotAvailable\")",
      "T\"OnOff_T\"C(0,3):VT(\"OnOff_Off\",\"OnOff_On\",\"OnOff_Error\",\"OnOff_NotAvailable\")",
      "P\"EngineSpeed\"T[0]:=0xFFFF", "P\"VehicleSpeed\"T[1]:=0xFFFF", "R\"FuelLevel\"T[2]:=255",
      "R\"CoolantTemp\"T[3]:=255", "R\"ParkBrakeState\"T[4]:=3", "R\"MainBeamState\"T[5]:=3"]) := by decide +kernel

end Apx.Conformance
