import Verif.Proofs.Tools4
import Verif.Proofs.Order
import Verif.Props.Join

/-!
C79: the tools that rewrite one definition.
-/

namespace Apx

/-! ### The tools as functions of one text -/

theorem filterTool_called {change : Node → Py Node} {nm : Bool} {output pipe : Option Str} {inputs : List (Str × Str)}
    {text : Str} {dest : Option Str} (h : Called output pipe inputs text dest) {n m : Node} (hn : parseFile text = .ok n)
    (hm : change n = .ok m) : filterTool change nm output pipe inputs = m.emit dest nm := by
  rcases h with ⟨f, rest, rfl, rfl, rfl⟩ | ⟨rfl, rfl, h⟩
  · cases output <;> simp [filterTool, outputName, inputText, hn, hm]
  · cases output with
    | some o => simp [filterTool, outputName, inputText, hn, hm]
    | none =>
      cases inputs with
      | nil => simp at h
      | cons p rest => simp [filterTool, outputName, inputText, hn, hm]

theorem mirrorNamed_writable {n : Node} (hi : NodeInv n) (hw : n.Writable) (name : Option Str) (hn : NameOk (name.getD n.name)) :
    ∃ m, mirrorNamed name n = .ok m ∧ NodeInv m ∧ m.Writable ∧ m.isFinalized = false ∧ m.name = name.getD n.name ∧
      m.types = n.types ∧ ∀ side, m.contents side.flip = n.contents side := by
  have he := mirror_eq hi none fun side p hp => (hw.ports side p hp).2.1
  have hi' := step_inv n (.mirror (some (name.getD n.name))) hi
  simp only [Node.step, mirror_eq hi (some (name.getD n.name)) fun side p hp => (hw.ports side p hp).2.1] at hi'
  refine ⟨_, by simp only [mirrorNamed, he, ok_bind]; rfl, hi', ?_, rfl, rfl, rfl, ?_⟩
  · refine ⟨hn, hw.types, ?_⟩
    intro side p hp
    cases side with
    | require =>
      obtain ⟨q, hq, rfl⟩ := List.mem_map.mp hp
      exact hw.ports .provide q hq
    | provide =>
      obtain ⟨q, hq, rfl⟩ := List.mem_map.mp hp
      exact hw.ports .require q hq
  · intro side
    cases side <;> simp [Side.flip, Node.contents, Node.ports, Function.comp_def, Port.content]

theorem mirrorNamed_ok {n : Node} (hi : NodeInv n) (ht : n.Tidy) (name : Option Str) (hn : NameOk (name.getD n.name)) :
    ∃ m, mirrorNamed name n = .ok m ∧ NodeInv m ∧ m.Tidy ∧ m.isFinalized = false ∧ m.name = name.getD n.name ∧
      m.types = n.types ∧ ∀ side, m.contents side.flip = n.contents side := by
  obtain ⟨m, h1, h2, h3, h4, h5, h6, h7⟩ := mirrorNamed_writable hi ht.writable name hn
  exact ⟨m, h1, h2, ⟨h3, h6 ▸ ht.below⟩, h4, h5, h6, h7⟩

theorem Node.Tidy.noShort {n : Node} (h : n.Tidy) : n.NoShort := fun t ht => (h.writable.types t ht).2.2.2.1

theorem Reload.copy {n r : Node} (h : Reload n r) : SortedCopy n r n.name false where
  name := h.name
  types := by rw [h.types]; exact (sortedByName_perm _ _).map _
  ports := by
    intro side
    simp only [Bool.false_eq_true, if_false]
    rw [h.ports]
    exact (sortedByName_perm _ _).map _
  typesSorted := sorted_of_content TypeObj.name TypeObj.content (·.1) (fun _ => rfl) h.types (sortedByName_sorted _ _)
  portsSorted := fun side =>
    sorted_of_content Port.name Port.content (·.1) (fun _ => rfl) (h.ports side) (sortedByName_sorted _ _)

/-! ### C79 -/

/-- The two tools that only sort and normalize. -/
def sortTool (normalized : Bool) : Option Str → Option Str → List (Str × Str) → ToolRun :=
  if normalized then apxNormalize else apxFinalize

theorem sortTool_eq (nm : Bool) (output pipe : Option Str) (inputs : List (Str × Str)) :
    sortTool nm output pipe inputs = filterTool .ok nm output pipe inputs := by
  cases nm <;> rfl

/-- C79: `apx_normalize` and `apx_finalize` write a text that is loaded to the same definition, sorted;
and they change nothing in a text they have written. Missing: the cases shown below. -/
theorem C79_sort_partial (nm : Bool) (output pipe : Option Str) (inputs : List (Str × Str)) (text : Str) (dest : Option Str)
    (h : Called output pipe inputs text dest) (n : Node) (hn : parseFile text = .ok n) (ht : n.Tidy) :
    ∃ out r, sortTool nm output pipe inputs = ⟨[(destOf dest, out)], .ok ()⟩ ∧ parseFile out = .ok r ∧
      SortedCopy n r n.name false ∧
      ∀ output' pipe' inputs' dest', Called output' pipe' inputs' out dest' →
        sortTool nm output' pipe' inputs' = ⟨[(destOf dest', out)], .ok ()⟩ := by
  obtain ⟨hb, hf⟩ := parseFile_built hn
  obtain ⟨out, r, h1, h2, h3, h4⟩ := output_text hb.inv ht nm
  refine ⟨out, r, ?_, h2, h3.copy, ?_⟩
  · rw [sortTool_eq, filterTool_called h hn rfl, emit_unfinalized n hb.inv.toNodeInv0 hf]
    exact h1 dest
  · intro output' pipe' inputs' dest' h'
    rw [sortTool_eq, filterTool_called h' h2 rfl, emit_unfinalized r h3.built.inv.toNodeInv0 h3.unfinal]
    exact h4 r h3.short h3.same dest'

/-- C79: `apx_mirror` writes a text that is loaded to the same definition with the directions of the
ports reversed, sorted, and under the new name if one is given. Mirrored once more, it is what
`apx_normalize` or `apx_finalize` make of the original text. -/
theorem C79_mirror_partial (name : Option Str) (nm : Bool) (output pipe : Option Str) (inputs : List (Str × Str)) (text : Str)
    (dest : Option Str) (h : Called output pipe inputs text dest) (n : Node) (hn : parseFile text = .ok n) (ht : n.Tidy)
    (hname : NameOk (name.getD n.name)) :
    ∃ out r, apxMirror name nm output pipe inputs = ⟨[(destOf dest, out)], .ok ()⟩ ∧ parseFile out = .ok r ∧
      SortedCopy n r (name.getD n.name) true ∧
      ∀ nm' output' pipe' inputs' dest', Called output' pipe' inputs' out dest' →
        ∃ back, apxMirror (some n.name) nm' output' pipe' inputs' = ⟨[(destOf dest', back)], .ok ()⟩ ∧
          sortTool nm' output pipe inputs = ⟨[(destOf dest, back)], .ok ()⟩ := by
  obtain ⟨hb, hf⟩ := parseFile_built hn
  obtain ⟨m, m1, m2, m3, m4, m5, m6, m7⟩ := mirrorNamed_ok hb.inv ht name hname
  obtain ⟨out, r, h1, h2, h3, -⟩ := output_text m2 m3 nm
  refine ⟨out, r, ?_, h2, ?_, ?_⟩
  · unfold apxMirror
    rw [filterTool_called h hn m1, emit_unfinalized m m2.toNodeInv0 m4]
    exact h1 dest
  · have hc := h3.copy
    refine ⟨by rw [h3.name, m5], m6 ▸ hc.types, ?_, hc.typesSorted, hc.portsSorted⟩
    intro side
    have := hc.ports side.flip
    simp only [Bool.false_eq_true, if_false] at this
    rw [m7] at this
    exact this
  · intro nm' output' pipe' inputs' dest' h'
    obtain ⟨k, k1, k2, k3, k4, k5, k6, k7⟩ := mirrorNamed_ok h3.built.inv (h3.tidy m3) (some n.name) ht.writable.name
    obtain ⟨back, r', g1, -, -, g4⟩ := output_text hb.inv ht nm'
    refine ⟨back, ?_, ?_⟩
    · unfold apxMirror
      rw [filterTool_called h' h2 k1, emit_unfinalized k k2.toNodeInv0 k4]
      refine g4 k k3.noShort ⟨k5, ?_, ?_⟩ dest'
      · rw [k6, h3.same.types, m6]
      · intro side
        have hfl : side.flip.flip = side := by cases side <;> rfl
        have e1 : k.contents side = r.contents side.flip := by rw [← k7, hfl]
        have e2 : (n.ports side).map Port.content = (m.ports side.flip).map Port.content := (m7 side).symm
        have e3 : k.contents side = (sortedByName Port.name (m.ports side.flip)).map Port.content := by rw [e1, h3.ports]
        have e4 : SortedByName Port.name (k.ports side) :=
          sorted_of_content Port.name Port.content (·.1) (fun _ => rfl) e3 (sortedByName_sorted _ _)
        rw [sortedByName_of_sorted _ _ e4]
        change k.contents side = _
        rw [e3]
        exact sortedByName_content e2.symm
    · rw [sortTool_eq, filterTool_called h hn rfl, emit_unfinalized n hb.inv.toNodeInv0 hf]
      exact g1 dest

/-- The hypotheses can be met: in a file, and in a pipe. -/
example : Called none none [("f".toList, tlText)] tlText (some "f".toList) ∧ Called (some "o".toList) (some tlText) [] tlText none ∧
    parseFile tlText = .ok tlSrc ∧ tlSrc.Tidy :=
  ⟨.inl ⟨_, _, rfl, rfl, rfl⟩, .inr ⟨rfl, rfl, .inl (by simp)⟩, tlSrc_loaded, tlSrc_splittable.toTidy⟩

example : (apxMirror none true none none [("f".toList, tlText)]).portsWritten = [.ok ([['o'], ['p']], [['q'], ['r']])] ∧
    (apxNormalize none none [("f".toList, tlText)]).portsWritten = [.ok ([['q'], ['r']], [['o'], ['p']])] := by
  decide +kernel

/-! ### Where the tools fail -/

/-- C79 fails for the documented use in a pipe: without a file or an output file, nothing is done,
whatever the text. -/
theorem C79_pipe_violated (nm : Bool) (name : Option Str) (text : Str) :
    sortTool nm none (some text) [] = ⟨[], .error .indexError⟩ ∧
      apxMirror name nm none (some text) [] = ⟨[], .error .indexError⟩ := by
  rw [sortTool_eq]
  exact ⟨rfl, rfl⟩

/-- The tool raises, and the file it has read is left with the first lines only (`C79_destroyed_violated`). -/
example :
    let text := "APX/1.2\nN\"X\"\nT\"A\"C\nP\"p\"{\"x\"T[0]}\nP\"q\"C\n".toList
    let r := sortTool true none none [("f".toList, text)]
    (parseFile text).toOption.isSome ∧ r.written = [(.file "f".toList, "APX/1.2\nN\"X\"\nT\"A\"C\n".toList)] ∧
      r.result = .error .runtimeError := by decide +kernel

/-- C79 fails where sorting puts a record type before a type it refers to: whatever else the definition
contains, the tools end without an error, and the text they have written (in place of the one they have
read, if no output is given) cannot be loaded. By `C79_sort_partial` and `C79_mirror_partial` this is the
only obstacle for a definition that can be written. -/
theorem C79_order_violated (nm : Bool) (name : Option Str) (output pipe : Option Str) (inputs : List (Str × Str)) (text : Str)
    (dest : Option Str) (h : Called output pipe inputs text dest) (n : Node) (hn : parseFile text = .ok n) (hw : n.Writable)
    (hname : NameOk (name.getD n.name)) (t : TypeObj) (ht : t ∈ n.types) (hb : ¬ t.elem.RefsBelow t.name) :
    (∃ out x, sortTool nm output pipe inputs = ⟨[(destOf dest, out)], .ok ()⟩ ∧ parseFile out = .error x) ∧
      ∃ out x, apxMirror name nm output pipe inputs = ⟨[(destOf dest, out)], .ok ()⟩ ∧ parseFile out = .error x := by
  obtain ⟨hbt, hf⟩ := parseFile_built hn
  have key : ∀ {out : Str} {P : Prop}, ((∃ r, parseFile out = .ok r) ↔ P) → ¬ P → ∃ x, parseFile out = .error x := by
    intro out P hiff hP
    cases hx : parseFile out with
    | error x => exact ⟨x, rfl⟩
    | ok r => exact absurd (hiff.mp ⟨r, hx⟩) hP
  constructor
  · obtain ⟨out, h1, h2⟩ := output_iff hbt.inv hw true nm
    obtain ⟨x, hx⟩ := key h2 fun hall => hb (hall t ht)
    refine ⟨out, x, ?_, hx⟩
    rw [sortTool_eq, filterTool_called h hn rfl, emit_unfinalized n hbt.inv.toNodeInv0 hf]
    exact h1 dest
  · obtain ⟨m, m1, m2, m3, m4, m5, m6, m7⟩ := mirrorNamed_writable hbt.inv hw name hname
    obtain ⟨out, h1, h2⟩ := output_iff m2 m3 true nm
    obtain ⟨x, hx⟩ := key h2 fun hall => hb (hall t (m6 ▸ ht))
    refine ⟨out, x, ?_, hx⟩
    unfold apxMirror
    rw [filterTool_called h hn m1, emit_unfinalized m m2.toNodeInv0 m4]
    exact h1 dest

/-- The hypotheses can be met. -/
example : Called none none [("f".toList, orText)] orText (some "f".toList) ∧ parseFile orText = .ok orSrc ∧ orSrc.Writable ∧
    ∃ t ∈ orSrc.types, ¬ t.elem.RefsBelow t.name :=
  ⟨.inl ⟨_, _, rfl, rfl, rfl⟩, orSrc_loaded, orSrc_writable, orType, by simp [orSrc], orType_above⟩

example :
    let r := sortTool false none none [("f".toList, orText)]
    (parseFile orText).toOption.isSome ∧ r.result.toOption.isSome ∧
      r.written.map (fun w => (w.1, (parseFile w.2).toOption.isSome)) = [(.file "f".toList, false)] := by decide +kernel

/-- C79: if the text cannot be loaded, nothing is written: the file the tools have read is unchanged. -/
theorem C79_unreadable (nm : Bool) (name : Option Str) (output pipe : Option Str) (inputs : List (Str × Str)) (text : Str)
    (dest : Option Str) (h : Called output pipe inputs text dest) (x : PyErr) (hx : parseFile text = .error x) :
    sortTool nm output pipe inputs = ⟨[], .error x⟩ ∧ apxMirror name nm output pipe inputs = ⟨[], .error x⟩ := by
  rw [sortTool_eq]
  have key : ∀ change, filterTool change nm output pipe inputs = ⟨[], .error x⟩ := by
    intro change
    obtain ⟨o, ho⟩ : ∃ o, outputName output inputs = .ok o := by
      rcases h with ⟨f, rest, _, rfl, _⟩ | ⟨_, _, h⟩
      · cases output <;> exact ⟨_, rfl⟩
      · cases output with
        | some o => exact ⟨o, rfl⟩
        | none =>
          cases inputs with
          | nil => simp at h
          | cons a l => exact ⟨_, rfl⟩
    have hi : inputText pipe inputs = .ok text := by
      rcases h with ⟨f, rest, rfl, rfl, _⟩ | ⟨rfl, _, _⟩ <;> rfl
    simp only [filterTool, ho, hi, hx, ok_bind, error_bind, ToolRun.raised]
  exact ⟨key _, key _⟩

example : Called none none [("f".toList, "N\"X\"\n".toList)] "N\"X\"\n".toList (some "f".toList) ∧
    (parseFile "N\"X\"\n".toList).toOption.isNone := by
  refine ⟨.inl ⟨"f".toList, [], rfl, rfl, rfl⟩, by decide +kernel⟩

end Apx
