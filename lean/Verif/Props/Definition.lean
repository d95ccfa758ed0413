import Verif.Props.RoundTrip
import Verif.Model.NodeBuild
import Verif.Proofs.NodeData

/-! C66: the definition file holds the definition, and describes the data files. -/

namespace Apx

theorem asciiDecode_encode (s : Str) (b : Bytes) (h : asciiEncode s = .ok b) : asciiDecode b = .ok s := by
  induction s generalizing b with
  | nil => simp only [asciiEncode, Except.ok.injEq] at h; subst h; rfl
  | cons c s ih =>
    simp only [asciiEncode] at h
    split at h
    · rename_i hc
      rw [bind_ok_iff] at h
      obtain ⟨bs, h1, h⟩ := h
      simp only [Except.ok.injEq] at h
      subst h
      have h2 : (UInt8.ofNat c.toNat).toNat = c.toNat := by
        simp [UInt8.toNat_ofNat']; omega
      simp only [asciiDecode, h2]
      rw [if_pos hc, ih bs h1]
      simp [ok_bind, Char.ofNat_toNat]
    · simp at h

theorem createDefinitionFile_ok {text : Str} {f : FileData} (h : createDefinitionFile text = .ok f) :
    asciiEncode text = .ok f.data := by
  unfold createDefinitionFile at h
  simp only [bind_ok_iff, Except.ok.injEq] at h
  obtain ⟨g, h1, b, h2, rfl⟩ := h
  have hl := asciiEncode_length text b h2
  unfold FileData.create at h1
  rw [if_neg (by omega)] at h1
  simp only [Except.ok.injEq] at h1
  subst h1
  rw [h2]
  simp only [FileData.write]
  rw [if_neg (by simp [hl])]
  simp [hl]

theorem nodeData_inv {n : Node} {nd : NodeData} (h : n.nodeData = .ok nd) :
    ∃ text, n.definitionText false = .ok text ∧
      NodeData.build n.named (n.requires.map Port.toNPort) (n.provides.map Port.toNPort) text = .ok nd := by
  unfold Node.nodeData at h
  rw [bind_ok_iff] at h
  exact h

/-- C66: the definition file has one byte per character of the definition text, namely its ASCII
code. -/
theorem C66_content (n : Node) (nd : NodeData) (h : n.nodeData = .ok nd) :
    ∃ text, n.definitionText false = .ok text ∧ (∀ c ∈ text, c.toNat < 128) ∧
      nd.definitionFile.data = text.map fun c => UInt8.ofNat c.toNat := by
  obtain ⟨text, h1, h2⟩ := nodeData_inv h
  obtain ⟨_, _, df, _, _, _, _, h3, h4⟩ := build_inv h2
  have h5 := createDefinitionFile_ok h3
  refine ⟨text, h1, asciiEncode_ok_iff text _ h5, ?_⟩
  rw [h4]
  simp only
  clear h1 h2 h3 h4
  generalize df.data = b at h5
  induction text generalizing b with
  | nil => simp only [asciiEncode, Except.ok.injEq] at h5; subst h5; rfl
  | cons c s ih =>
    simp only [asciiEncode] at h5
    split at h5
    · rw [bind_ok_iff] at h5
      obtain ⟨bs, h6, h5⟩ := h5
      simp only [Except.ok.injEq] at h5
      subst h5
      rw [ih bs h6]
      rfl
    · simp at h5

/-- C66: a definition with a character outside ASCII cannot be served: no node data is made. -/
theorem C66_ascii_only (n : Node) (text : Str) (ht : n.definitionText false = .ok text) (c : Char)
    (hc : c ∈ text) (hn : 128 ≤ c.toNat) : ∃ x, n.nodeData = .error x := by
  cases h : n.nodeData with
  | error x => exact ⟨x, rfl⟩
  | ok nd =>
    obtain ⟨text', h1, h2, _⟩ := C66_content n nd h
    rw [ht] at h1
    cases h1
    have := h2 c hc
    omega

theorem checkId_ok {k : Nat} {i : Option Int} (h : checkId k i = .ok ()) : i = some (k : Int) := by
  cases i with
  | none => simp [checkId] at h
  | some j =>
    simp only [checkId] at h
    split at h
    · rename_i hj; rw [hj]
    · simp at h

theorem addPort_id {d : Dir} {types : List NamedType} {s s' : PortLayout} {p : NPort}
    (h : addPort d types s p = .ok s') : p.id = some (s.progs.length : Int) ∧ s'.progs.length = s.progs.length + 1 := by
  unfold addPort at h
  simp only [bind_ok_iff, Except.ok.injEq] at h
  obtain ⟨_, _, e, _, de, _, n, _, prog, _, _, hc, b, _, rfl⟩ := h
  exact ⟨checkId_ok hc, by simp⟩

/-- Node data is made only of ports numbered from zero. -/
theorem addPorts_numbered {d : Dir} {types : List NamedType} (ps : List Port) (s s' : PortLayout)
    (h : addPorts d types s (ps.map Port.toNPort) = .ok s') : numbered s.progs.length ps = ps := by
  induction ps generalizing s with
  | nil => rfl
  | cons p ps ih =>
    simp only [List.map_cons, addPorts, bind_ok_iff] at h
    obtain ⟨s1, h1, h2⟩ := h
    obtain ⟨h3, h4⟩ := addPort_id h1
    have h5 := ih s1 h2
    rw [h4] at h5
    simp only [numbered, h5, List.cons.injEq, and_true]
    have h6 : p.id.map Int.ofNat = some (s.progs.length : Int) := h3
    cases hid : p.id with
    | none => rw [hid] at h6; simp at h6
    | some j =>
      rw [hid] at h6
      simp only [Option.map_some, Option.some.injEq] at h6
      have : j = s.progs.length := by
        have h7 : (j : Int) = (s.progs.length : Int) := h6
        omega
      cases p
      simp only at hid
      simp [hid, this]

/-- C66: whoever receives the definition file, decodes it and parses it, has a node with the same
name, types and ports, and computes from it the same offsets, lengths, initial contents and programs
for both data files. This needs a node whose types refer only to earlier types. -/
theorem C66_describes_partial (n : Node) (hb : n.Built) (ho : n.Ordered) (hw : n.Writable) (nd : NodeData)
    (h : n.nodeData = .ok nd) :
    ∃ text m, asciiDecode nd.definitionFile.data = .ok text ∧ (∀ st : Parser, (st.loads text).2 = .ok m) ∧
      m.SameDefinition n ∧
      NodeData.build m.named (m.requires.map Port.toNPort) (m.provides.map Port.toNPort) text = .ok nd := by
  have hi : NodeInv n := Node.Built.inv hb
  obtain ⟨text, h1, h2⟩ := nodeData_inv h
  obtain ⟨i, o, df, g1, _, g2, _, h3, h4⟩ := build_inv h2
  have h5 := createDefinitionFile_ok h3
  obtain ⟨ls, h6, h7⟩ := text_reload hi ho hw false
  have ht : text = joinLines (headerText :: ls) ++ ['\n'] := by
    simp only [Node.definitionText, h6, ok_bind, Except.ok.injEq] at h1
    exact h1.symm
  refine ⟨text, n.reloaded, ?_, fun st => (h7 text ht st).1, reloaded_same n, ?_⟩
  · rw [h4]
    exact asciiDecode_encode text _ h5
  · have e1 : n.reloaded.named = n.named := by
      simp only [Node.reloaded, Node.named, List.map_map]; rfl
    have e2 : n.reloaded.requires = n.requires := addPorts_numbered n.requires .empty i g1
    have e3 : n.reloaded.provides = n.provides := addPorts_numbered n.provides .empty o g2
    rw [e1, e2, e3]
    exact h2

/-- C66: in particular for every node that has not been finalized. -/
theorem C66_describes (name : Str) (ops : List NodeOp) (hops : ∀ op ∈ ops, ¬ op.Finalizes)
    (hw : ((Node.new name).run ops).Writable) (nd : NodeData) (h : ((Node.new name).run ops).nodeData = .ok nd) :
    ∃ text m, asciiDecode nd.definitionFile.data = .ok text ∧ (∀ st : Parser, (st.loads text).2 = .ok m) ∧
      m.SameDefinition ((Node.new name).run ops) ∧
      NodeData.build m.named (m.requires.map Port.toNPort) (m.provides.map Port.toNPort) text = .ok nd :=
  C66_describes_partial _ ⟨name, ops, rfl⟩ (fun i t h => C46_earlier name ops hops i t h) hw nd h

/-- A node with a record type and three ports. -/
def dfNode : Node := (Node.new ['N']).run
  [.addType ['A'] ['{', '"', 'x', '"', 'C', '"', 'y', '"', 'S', '[', '2', ']', '}'] none,
    .addPort .provide ['p'] ['l'] none, .addPort .provide ['q'] ['T', '[', '"', 'A', '"', ']'] none,
    .addPort .require ['r'] ['a', '[', '3', ']'] none]

example : dfNode.nodeData.toOption.map (fun nd => (nd.definitionFile.data.length, nd.inRanges, nd.outRanges)) =
    some (57, [⟨0, 3, 0⟩], [⟨0, 4, 0⟩, ⟨4, 5, 1⟩]) := by decide +kernel

example : (∀ op ∈ rtOps, ¬ op.Finalizes) ∧ ((Node.new ['N']).run rtOps).Writable := ⟨rtOps_not_final, rtOps_writable⟩

/-- The node of the next theorem: a record type named before the type it uses. -/
def dfOps : List NodeOp :=
  [.addType ['B'] ['C'] none, .addType ['A'] ['{', '"', 'x', '"', 'T', '[', '"', 'B', '"', ']', '}'] none,
    .addPort .provide ['p'] ['T', '[', '"', 'A', '"', ']'] none, .finalize true false]

/-- Node data is made, but the definition file cannot be parsed (`C66_sorted_violated`). -/
example :
    (match ((Node.new ['N']).run dfOps).nodeData with
      | .ok nd => decide (nd.outRanges = [⟨0, 1, 0⟩]) && (match asciiDecode nd.definitionFile.data with
          | .ok text => (Parser.new.loads text).2.toOption.isNone
          | .error _ => false)
      | .error _ => false) = true := by
  decide +kernel

/-- The definition text of a node with one port whose name is not ASCII. -/
example : ((Node.new ['N']).run [.addPort .provide ['é'] ['C'] none]).definitionText false =
      .ok "APX/1.2\nN\"N\"\nP\"é\"C\n".toList ∧ 128 ≤ 'é'.toNat := by decide +kernel

end Apx
