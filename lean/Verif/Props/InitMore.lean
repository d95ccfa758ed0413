import Verif.Props.PortExact
import Verif.Props.InitEnd
import Verif.Props.GenFile
import Verif.Props.GenTextMore
import Verif.Props.GeneratorMore

/-! C71, C89: where the properties fail, for all inputs. -/

namespace Apx

/-- C71 fails for every require port with a record inside a record, whatever its init value is: reading it raises, before
anything has been received. -/
theorem C71_nested_violated (n : Node) (nd : NodeData) (h : n.nodeData = .ok nd) (as : List Access)
    (hlock : (nd.run as).locked = false) (k : Nat) (p : Port) (hk : n.requires[k]? = some p) (fs : Fields)
    (hde : n.portType p = .ok (.record fs none)) (hlens : (Elem.record fs none).LensOk)
    (hnames : (Elem.record fs none).NamesOk) (hn : ¬ fs.AllFlat) (hpos : (nd.run as).inFile.isSome) :
    ∃ x, ((nd.run as).readRequire k).2 = .raised x := by
  obtain ⟨text, _, h⟩ := bind_ok_iff.mp h
  obtain ⟨x, hx⟩ := NodeData.C108_nested_violated n.named _ _ text _ ⟨nd, as, h, rfl⟩ hlock k p.toNPort
    (by rw [List.getElem?_map, hk]; rfl) fs hde hlens hnames hpos hn
  exact ⟨x, by rw [hx]⟩

/-- C89 fails for every definition with a backslash or a carriage return: the object does not denote the definition. -/
theorem C89_backslash_violated (n : Node) (g : Generated) (hg : generate n = .ok g) (old : Option Str) (o : GenOptions)
    (f : GenFiles) (hf : genFiles old o g = .ok f) (text : Str) (ht : g.node.definitionText false = .ok text)
    (hb : '\\' ∈ text ∨ '\r' ∈ text) :
    ∃ stmts, (⟨initProto (o.nameFor g.node), .init stmts⟩ : CDef) ∈ f.source.defs ∧
      ∀ m : CStatics, m.Sized f.source → ∃ m' obj, runInit f.source stmts m = some m' ∧ m'.node = some obj ∧
        cLiterals false obj.literal ≠ some (text ++ ['\n']) := by
  obtain ⟨stmts, k1, k2⟩ := C89_init n g hg old o f hf
  refine ⟨stmts, k1, fun m hm => ?_⟩
  obtain ⟨m', obj, r1, r2, -, -, -, -, -, r3, -⟩ := k2 m hm
  refine ⟨m', obj, r1, r2, fun h => ?_⟩
  obtain ⟨lit, h1, h2⟩ := C68_exactly g text ht
  rw [r3, Except.ok.injEq, Prod.mk.injEq] at h1
  rw [← h1.1] at h2
  obtain ⟨h3, h4⟩ := h2.mp h
  rcases hb with hb | hb
  · exact h3 hb
  · exact h4 hb

/-- C89 fails for every node with two provide ports of one name and length and different init data: the buffer of the C
node starts with other data than the file of the Python client. -/
theorem C89_same_name_violated (n : Node) (g : Generated) (hg : generate n = .ok g) (old : Option Str) (o : GenOptions)
    (f : GenFiles) (hf : genFiles old o g = .ok f) (nd : NodeData) (hnd : g.node.nodeData = .ok nd)
    (hl : ∀ s ∈ g.provide, ∀ s' ∈ g.provide, s.name = s'.name → s.packLen = s'.packLen)
    (s s' : Signal) (hs : s ∈ g.provide) (hs' : s' ∈ g.provide) (hn : s.name = s'.name) (hd : s.initData ≠ s'.initData) :
    ∃ stmts, (⟨initProto (o.nameFor g.node), .init stmts⟩ : CDef) ∈ f.source.defs ∧
      ∀ m : CStatics, m.Sized f.source → ∃ m', runInit f.source stmts m = some m' ∧ m'.outBuf ≠ fileBytes nd.outFile := by
  obtain ⟨stmts, k1, k2⟩ := C89_init n g hg old o f hf
  refine ⟨stmts, k1, fun m hm => ?_⟩
  obtain ⟨m', obj, r1, -, -, r2, -⟩ := k2 m hm
  exact ⟨m', r1, by rw [r2]; exact C53_same_name_violated n g hg nd hnd hl s s' hs hs' hn hd⟩

section Examples

/-- `R"n"{"i"{"x"C}}:={{5}}` -/
def imxNested : Node := (Node.new ['N']).run [.addPort .require ['n'] "{\"i\"{\"x\"C}}".toList (some "={{5}}".toList)]

example : (match imxNested.nodeData with
    | .ok nd => !nd.locked && nd.inFile == some ⟨[5]⟩ && ((nd.readRequire 0).2 matches .raised _)
    | .error _ => false) = true := by decide +kernel

/-- The hypotheses of the last two theorems hold of nodes with the port name `\nP`, and with two ports of one name. -/
example : (match generate gtBack, generate geTwice with
    | .ok g, .ok g' => (genFiles none {} g).toOption.isSome && (genFiles none {} g').toOption.isSome &&
        (match g.node.definitionText false with
          | .ok t => t.contains '\\'
          | .error _ => false)
    | _, _ => false) = true := by decide +kernel

end Examples

end Apx
