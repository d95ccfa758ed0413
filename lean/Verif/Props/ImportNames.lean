import Verif.Props.LoadNames
import Verif.Props.ImportText

/-! C82: components whose definition text is never loaded as what it describes. -/

namespace Apx

/-- C82 is violated by every component that is imported and has a name or an attribute, such as the value table of an
enumeration, with a character that ends it too early: no definition text, whoever writes it, is loaded as a node with the
names, types, attribute texts and ports of the one imported. -/
theorem C82_unsayable_violated (ceilLog : Nat → Nat) (ws : Workspace) (swc : AComponent) (name : Option Str) (n : Node)
    (_ : Node.fromSwc ceilLog ws swc name = .ok n) (hs : ¬ n.Sayable) (text : Str) (m : Node)
    (h : (Parser.new.loads text).2 = .ok m ∨ (Parser.new.load text).2 = .ok m) :
    ¬ (m.name = n.name ∧ m.types.map TypeObj.said = n.types.map TypeObj.said ∧
      ∀ side, (m.ports side).map Port.content = (n.ports side).map Port.content) := by
  rintro ⟨h1, h2, h3⟩
  obtain ⟨g1, g2, g3⟩ := C47_loaded text m h
  apply hs
  refine ⟨h1 ▸ g1, ?_, ?_⟩
  · intro t ht
    have : t.said ∈ m.types.map TypeObj.said := by rw [h2]; exact List.mem_map.mpr ⟨t, ht, rfl⟩
    obtain ⟨u, hu, e⟩ := List.mem_map.mp this
    simp only [TypeObj.said, Prod.mk.injEq] at e
    obtain ⟨e1, -, e3⟩ := e
    refine ⟨e1 ▸ (g2 u hu).1, fun a ha => ?_⟩
    rw [ha] at e3
    cases hua : u.attr with
    | none => rw [hua] at e3; cases e3
    | some b =>
      rw [hua] at e3
      simp only [Option.map_some, Option.some.injEq] at e3
      rw [← e3]
      exact (g2 u hu).2 b hua
  · intro side p hp
    have : p.content ∈ (m.ports side).map Port.content := by rw [h3 side]; exact List.mem_map.mpr ⟨p, hp, rfl⟩
    obtain ⟨u, hu, e⟩ := List.mem_map.mp this
    simp only [Port.content, Prod.mk.injEq] at e
    rw [← e.1, ← e.2.2]; exact g3 side u hu

/-- An enumeration with a hash sign in a text. -/
example : ∃ n, Node.fromSwc exactCeilLog (imEnum [⟨0, 0, "No #1".toList⟩])
    ⟨"S".toList, [⟨"a".toList, "/If/A".toList, []⟩], []⟩ none = .ok n ∧ ¬ n.Sayable := by
  have h : (Node.fromSwc exactCeilLog (imEnum [⟨0, 0, "No #1".toList⟩])
      ⟨"S".toList, [⟨"a".toList, "/If/A".toList, []⟩], []⟩ none).toOption.map
        (fun n => n.types.map fun t => t.attr.map TypeAttr.str) = some [some "VT(\"No #1\")".toList] := by decide +kernel
  cases hn : Node.fromSwc exactCeilLog (imEnum [⟨0, 0, "No #1".toList⟩])
      ⟨"S".toList, [⟨"a".toList, "/If/A".toList, []⟩], []⟩ none with
  | error x => rw [hn] at h; cases h
  | ok n =>
    rw [hn] at h
    refine ⟨n, rfl, fun hs => ?_⟩
    have h' : (n.types.map fun t => t.attr.map TypeAttr.str) = _ := Option.some.inj h
    obtain ⟨t, ht, e⟩ := List.mem_map.mp (show some "VT(\"No #1\")".toList ∈ n.types.map fun t => t.attr.map TypeAttr.str by
      rw [h']; exact List.mem_singleton.mpr rfl)
    obtain ⟨a, ha, e⟩ := Option.map_eq_some_iff.mp e
    have := ((hs.2.1 t ht).2 a ha).1
    rw [e] at this
    exact absurd this (by decide)

end Apx
