import Verif.Model.NodeBuild
import Verif.Model.Parser
import Verif.Model.Client

/-! Node data and clients made from a definition text. -/

namespace Apx

/-- `NodeData(text)`: the last step reads the attribute `name` of the text.
/repo/apx/node_data.py:29-32,36-46. -/
def nodeDataOfText (text : Str) : Py NodeData := do
  let n ← (Parser.new.loads text).2
  let i ← addPorts .unpack n.named .empty (n.requires.map Port.toNPort)
  let _ ← createPortFile i
  let o ← addPorts .pack n.named .empty (n.provides.map Port.toNPort)
  let _ ← createPortFile o
  .error .attributeError

/-- `Client(text)`, that is `create_node(text)`. /repo/apx/client.py:20-24,46-53. -/
def Client.create (text : Str) : Py Client := do
  let n ← (Parser.new.loads text).2
  Client.attach n

end Apx
