import Verif.Proofs.Import2
import Verif.Props.Import
import Verif.Props.Definition
import Verif.Proofs.Tools4

/-! C82: definition texts of imported components. -/

namespace Apx

theorem tabled_same {n : Node} (h : n.Loadable) : n.tabled.types.map TypeObj.said = n.types.map TypeObj.said := by
  simp only [Node.tabled, List.map_map]
  apply List.map_congr_left
  intro t ht
  simp only [Function.comp_apply, TypeObj.said, tabled_attr (h t ht)]
  rfl

theorem said_of_content {a b : List TypeObj} (h : a.map TypeObj.content = b.map TypeObj.content) :
    a.map TypeObj.said = b.map TypeObj.said := by
  have := congrArg (List.map (fun c : Str × Elem × Option TypeAttr => (c.1, c.2.1, c.2.2.map TypeAttr.str))) h
  simp only [List.map_map] at this
  exact this

theorem importText_text {n : Node} (ht : ImportText n) (normalized : Bool) :
    ∃ text m, n.definitionText normalized = .ok text ∧
      (∀ st : Parser, (st.loads text).2 = .ok m ∧ (st.load text).2 = .ok m) ∧
      m.name = n.name ∧ m.types.map TypeObj.said = n.types.map TypeObj.said ∧
      (∀ side, (m.ports side).map Port.content = (n.ports side).map Port.content) ∧
      ∀ t ∈ m.types, ∀ a, t.attr = some a → typeAttribute a.str = .ok a := by
  have ho : n.tabled.Ordered := by
    intro i t hti
    obtain ⟨u, hu, rfl⟩ := List.mem_map.mp (List.mem_of_getElem? hti)
    exact ht.norefs u hu _
  obtain ⟨ls, h1, h2⟩ := text_reload ht.inv ho ht.writable normalized
  rw [tabled_lines n ht.loadable] at h1
  obtain ⟨s1, s2, s3⟩ := reloaded_same n.tabled
  refine ⟨_, n.tabled.reloaded, by simp [Node.definitionText, h1], h2 _ rfl, s1, ?_, ?_, ?_⟩
  · rw [said_of_content s2, tabled_same ht.loadable]
  · intro side
    rw [s3 side]
    cases side <;> rfl
  · intro t htm a ha
    simp only [Node.reloaded, List.mem_map] at htm
    obtain ⟨u, hu, rfl⟩ := htm
    exact ht.inv.tattr u hu a ha

/-- C82: the definition text of an imported component can be loaded by either function, whatever the state of the
parser, and says the same: the same name, types with the same layout and attribute text, ports with the same
names, types and init values, all in the same order. Value tables, which an imported type has as a text
only, are loaded. -/
theorem C82_text (ceilLog : Nat → Nat) (hc : Accurate ceilLog) (ws : Workspace) (swc : AComponent)
    (name : Option Str) (h : Importable ws swc) (hl : Legible ws swc name) (n : Node)
    (hn : Node.fromSwc ceilLog ws swc name = .ok n) (normalized : Bool) :
    ∃ text m, n.definitionText normalized = .ok text ∧
      (∀ st : Parser, (st.loads text).2 = .ok m ∧ (st.load text).2 = .ok m) ∧
      m.name = n.name ∧ m.types.map TypeObj.said = n.types.map TypeObj.said ∧
      (∀ side, (m.ports side).map Port.content = (n.ports side).map Port.content) ∧
      ∀ t ∈ m.types, ∀ a, t.attr = some a → typeAttribute a.str = .ok a :=
  importText_text (import_text hc h hl hn) normalized

theorem import_finalize {n : Node} (ht : ImportText n) (sort : Bool) : n.finalize sort false = .ok (n.finalized sort false) := by
  have hp : ∀ side, ∀ p ∈ n.ports side, PortInv n.named p := by
    intro side p hp
    have := ht.inv.ports side p (by cases side <;> exact hp)
    rw [tabled_named] at this
    exact this
  unfold Node.finalize
  rw [if_neg (by simp [ht.fin]), resolveTypes_id _ n.named]
  · rfl
  · intro side p hq
    rw [sortElements_ports] at hq
    apply hp side
    split at hq
    · exact (sortedByName_perm _ _).mem_iff.mp hq
    · exact hq

/-- C82: so can the text that `dumps` returns; its types and ports are sorted by name. -/
theorem C82_dumps (ceilLog : Nat → Nat) (hc : Accurate ceilLog) (ws : Workspace) (swc : AComponent)
    (name : Option Str) (h : Importable ws swc) (hl : Legible ws swc name) (n : Node)
    (hn : Node.fromSwc ceilLog ws swc name = .ok n) (normalized : Bool) :
    ∃ n' text m, n.dumps normalized = .ok (n', text) ∧
      (∀ st : Parser, (st.loads text).2 = .ok m ∧ (st.load text).2 = .ok m) ∧
      m.name = n.name ∧ SortedByName TypeObj.name m.types ∧ (m.types.map TypeObj.said).Perm (n.types.map TypeObj.said) ∧
      ∀ side, SortedByName Port.name (m.ports side) ∧ ((m.ports side).map Port.content).Perm ((n.ports side).map Port.content) := by
  have ht := import_text hc h hl hn
  have hf := import_finalize ht true
  have hi := finalized_inv n.tabled true false ht.inv.toNodeInv0
  have hw := finalized_writable ht.writable true
  have hcont := finalized_content n.tabled true false
  have hmem : ∀ t ∈ (n.tabled.finalized true false).types, ∀ types, t.elem.RefsIn types := by
    intro t htm types
    have : t.content ∈ (n.tabled.finalized true false).types.map TypeObj.content := List.mem_map_of_mem htm
    rw [hcont] at this
    obtain ⟨u, hu, he⟩ := List.mem_map.mp this
    have hu := (sortedByName_perm _ _).mem_iff.mp hu
    obtain ⟨v, hv, rfl⟩ := List.mem_map.mp hu
    have e : v.elem = t.elem := congrArg (fun c => c.2.1) he
    rw [← e]; exact ht.norefs v hv types
  have ho : (n.tabled.finalized true false).Ordered := fun i t hti => hmem t (List.mem_of_getElem? hti) _
  obtain ⟨ls, h1, h2⟩ := text_reload hi ho hw normalized
  have hload : (n.finalized true false).Loadable := by
    intro t htm a ha
    rw [finalized_types] at htm
    obtain ⟨i, hi⟩ := List.getElem?_of_mem htm
    simp only [List.getElem?_mapIdx, Option.map_eq_some_iff] at hi
    obtain ⟨u, hu, rfl⟩ := hi
    exact ht.loadable u ((sortedByName_perm _ _).mem_iff.mp (List.mem_of_getElem? hu)) a ha
  have h3 := h1
  rw [tabled_finalized, tabled_lines _ hload] at h3
  have hne : ls ≠ [] := by
    rintro rfl
    simp [Node.lines, bind_ok_iff] at h3
  obtain ⟨s1, s2, s3⟩ := reloaded_same (n.tabled.finalized true false)
  refine ⟨_, _, (n.tabled.finalized true false).reloaded,
    by simp only [Node.dumps, ht.fin, hf, h3, ok_bind, Bool.false_eq_true, if_false]; rfl, ?_, ?_, ?_, ?_, ?_⟩
  · apply h2
    cases ls with
    | nil => exact absurd rfl hne
    | cons l ls => simp [joinLines]
  · rw [s1, finalized_name]; rfl
  · have hnames : (n.tabled.finalized true false).reloaded.types.map TypeObj.name
        = (n.tabled.finalized true false).types.map TypeObj.name := names_of_content _ _ s2
    have hs := finalized_sorted n.tabled true false
    unfold SortedByName at hs ⊢
    rw [← List.pairwise_map (f := TypeObj.name) (R := fun a b => a ≤ b)] at hs ⊢
    rw [hnames]; exact hs
  · rw [said_of_content s2, said_of_content hcont, ← tabled_same ht.loadable]
    exact (sortedByName_perm TypeObj.name n.tabled.types).map _
  · intro side
    have hp : (n.tabled.finalized true false).ports side = sortedByName Port.name (n.ports side) := by
      rw [finalized_ports]; cases side <;> rfl
    refine ⟨?_, ?_⟩
    · have hnames : ((n.tabled.finalized true false).reloaded.ports side).map Port.name
          = (sortedByName Port.name (n.ports side)).map Port.name := by
        have := congrArg (List.map (fun c : Str × Elem × Option PortAttr => c.1)) (s3 side)
        simp only [List.map_map] at this
        rw [hp] at this
        exact this
      have hs := sortedByName_sorted Port.name (n.ports side)
      unfold SortedByName at hs ⊢
      rw [← List.pairwise_map (f := Port.name) (R := fun a b => a ≤ b)] at hs ⊢
      rw [hnames]; exact hs
    · rw [s3 side, hp]
      exact (sortedByName_perm Port.name (n.ports side)).map _

/-- C82: the definition file which a client publishes for an imported component can be loaded by its peer, and gives
node data with the same ranges, the same programs and the same initial contents. -/
theorem C82_published (ceilLog : Nat → Nat) (hc : Accurate ceilLog) (ws : Workspace) (swc : AComponent)
    (name : Option Str) (h : Importable ws swc) (hl : Legible ws swc name) (n : Node)
    (hn : Node.fromSwc ceilLog ws swc name = .ok n) (nd : NodeData) (hd : n.nodeData = .ok nd) :
    ∃ text m, asciiDecode nd.definitionFile.data = .ok text ∧ (∀ st : Parser, (st.loads text).2 = .ok m) ∧
      m.types.map TypeObj.said = n.types.map TypeObj.said ∧
      NodeData.build m.named (m.requires.map Port.toNPort) (m.provides.map Port.toNPort) text = .ok nd := by
  have ht := import_text hc h hl hn
  have ho : n.tabled.Ordered := by
    intro i t hti
    obtain ⟨u, hu, rfl⟩ := List.mem_map.mp (List.mem_of_getElem? hti)
    exact ht.norefs u hu _
  obtain ⟨text, h1, h2⟩ := nodeData_inv hd
  obtain ⟨i, o, df, g1, _, g2, _, h3, h4⟩ := build_inv h2
  have h5 := createDefinitionFile_ok h3
  obtain ⟨ls, h6, h7⟩ := text_reload ht.inv ho ht.writable false
  have hte : text = joinLines (headerText :: ls) ++ ['\n'] := by
    rw [tabled_lines n ht.loadable] at h6
    simp only [Node.definitionText, h6, ok_bind, Except.ok.injEq] at h1
    exact h1.symm
  obtain ⟨_, s2, _⟩ := reloaded_same n.tabled
  refine ⟨text, n.tabled.reloaded, ?_, fun st => (h7 text hte st).1, ?_, ?_⟩
  · rw [h4]
    exact asciiDecode_encode text _ h5
  · rw [said_of_content s2, tabled_same ht.loadable]
  · have e1 : n.tabled.reloaded.named = n.named := by
      rw [← tabled_named n]
      simp only [Node.reloaded, Node.named, List.map_map]; rfl
    have e2 : n.tabled.reloaded.requires = n.requires := addPorts_numbered n.requires .empty i g1
    have e3 : n.tabled.reloaded.provides = n.provides := addPorts_numbered n.provides .empty o g2
    rw [e1, e2, e3]
    exact h2

theorem imSwc_legible : Legible imWs imSwc none := by
  have t1 : imWs.typeOf ⟨"VehSpeed".toList, "/If/A".toList, [.dataElement (some "/Const/Speed".toList)]⟩
      = some ("Speed".toList, .int 0 65535) := by decide +kernel
  have t2 : imWs.typeOf ⟨"Lamp".toList, "/If/C".toList, [.dataElement (some "/Const/Status".toList)]⟩
      = some ("Status".toList, .record (.cons "on".toList .bool (.cons "level_RE".toList (.int 0 3) .nil))) := by decide +kernel
  have t3 : imWs.typeOf ⟨"OutSpeed".toList, "/If/A".toList, []⟩ = some ("Speed".toList, .int 0 65535) := by decide +kernel
  have hports : ∀ side, ∀ p ∈ imSwc.ports side,
      imWs.typeOf p = some ("Speed".toList, .int 0 65535) ∨
      imWs.typeOf p = some ("Status".toList, .record (.cons "on".toList .bool (.cons "level_RE".toList (.int 0 3) .nil))) := by
    intro side p hp
    cases side <;> simp only [imSwc, AComponent.ports, List.mem_cons, List.not_mem_nil, or_false] at hp
    · rcases hp with rfl | rfl
      · exact .inl t1
      · exact .inr t2
    · subst hp; exact .inl t3
  refine ⟨by unfold NameOk; decide, ?_, ?_, ?_, ?_⟩
  · intro side p hp
    cases side <;> simp only [imSwc, AComponent.ports, List.mem_cons, List.not_mem_nil, or_false] at hp
    · rcases hp with rfl | rfl <;> (unfold NameOk; decide)
    · subst hp; unfold NameOk; decide
  · intro side p hp tn t ht
    rcases hports side p hp with h | h <;> rw [h] at ht <;> cases ht
    · exact ⟨by unfold NameOk; decide, by decide, by decide, by decide, by simp [AType.Tidy]⟩
    · exact ⟨by unfold NameOk; decide, by decide, by decide, by decide,
        by simp only [AType.Tidy, AFields.Tidy]; decide⟩
  · intro side p hp tn t ht es hes
    rcases hports side p hp with h | h <;> rw [h] at ht <;> cases ht
    · have : imWs ("/DataType/DataTypeSemantics/".toList ++ "Speed".toList)
          = some (.compuConst [⟨0, 0, "Off".toList⟩, ⟨1, 2, "On".toList⟩]) := by rfl
      rw [this] at hes
      cases hes
      refine ⟨by decide, ?_⟩
      intro e he
      simp only [List.mem_cons, List.not_mem_nil, or_false] at he
      rcases he with rfl | rfl <;> (unfold PlainText; decide)
    · have : imWs ("/DataType/DataTypeSemantics/".toList ++ "Status".toList) = none := by rfl
      rw [this] at hes
      cases hes
  · intro side p hp v w hv hw
    cases side <;> simp only [imSwc, AComponent.ports, List.mem_cons, List.not_mem_nil, or_false] at hp
    · rcases hp with rfl | rfl
      · have : imWs.initOf ⟨"VehSpeed".toList, "/If/A".toList, [.dataElement (some "/Const/Speed".toList)]⟩ = some (.int 300) := rfl
        rw [this] at hv; cases hv
        rw [AConst.value] at hw; cases hw
        simp [InitVal.Tidy]
      · have : imWs.initOf ⟨"Lamp".toList, "/If/C".toList, [.dataElement (some "/Const/Status".toList)]⟩
            = some (.record [.int 1, .int 2]) := rfl
        rw [this] at hv; cases hv
        simp [AConst.value, AConst.values] at hw; subst hw
        simp [InitVal.Tidy, InitVal.TidyList]
    · subst hp; cases hv

example : ((Node.fromSwc exactCeilLog imWs imSwc none) >>= fun n => n.definitionText true) = .ok
    ("APX/1.2\nN\"Swc\"\nT\"Speed\"S:VT(\"Off\",\"On1\",\"On2\")\nT\"Status\"{\"on\"C(0,1)\"level\"C(0,3)}\n" ++
      "P\"OutSpeed\"T[\"Speed\"]\nR\"VehSpeed\"T[\"Speed\"]:=0x12C\nR\"Lamp\"T[\"Status\"]:={1,2}\n").toList := by
  decide +kernel

/-- A workspace with one type, an enumeration. -/
def imEnum (es : List CompuElem) : Workspace := fun ref =>
  if ref = "/If/A".toList then some (.senderReceiver ["/Pkg1/Speed".toList])
  else if ref = "/Pkg1/Speed".toList then some (.dataType "Speed".toList (.int 0 65535))
  else if ref = "/DataType/DataTypeSemantics/Speed".toList then some (.compuConst es)
  else none

/-- The text of the component with one port of that type, and whether it can be loaded. -/
def imLoads (es : List CompuElem) : Bool × Bool :=
  match Node.fromSwc exactCeilLog (imEnum es) ⟨"S".toList, [⟨"a".toList, "/If/A".toList, []⟩], []⟩ none with
  | .ok n => match n.definitionText false with
    | .ok text => (n.nodeData.toOption.isSome, (Parser.new.loads text).2.toOption.isSome)
    | .error _ => (false, false)
  | .error _ => (false, false)

/-- C82 is violated by an enumeration with a parenthesis or a hash sign in a text: the component is imported and its
node data is made, but the definition text cannot be loaded. -/
theorem C82_enum_violated :
    imLoads [⟨0, 0, "Max (100)".toList⟩] = (true, true) ∧ imLoads [⟨0, 0, "Off".toList⟩, ⟨1, 1, "a)".toList⟩] = (true, false) ∧
    imLoads [⟨0, 0, ":-(".toList⟩] = (true, false) ∧ imLoads [⟨0, 0, "No #1".toList⟩] = (true, false) := by
  decide +kernel

end Apx
