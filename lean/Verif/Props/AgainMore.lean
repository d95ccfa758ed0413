import Verif.Props.Again
import Verif.Props.WriteMore

/-! C86: texts that can be loaded but not given to a client, in general. -/

namespace Apx

/-- C86 is violated by every text that can be loaded and has a port whose signature is a record containing a type number:
creating a client from the text raises RuntimeError. -/
theorem C86_numbers_violated (text : Str) (n : Node) (h : (Parser.new.loads text).2 = .ok n) (side : Side) (p : Port)
    (hp : p ∈ n.ports side) (hn : ¬ p.elem.NoNumbers) : Client.create text = .error .runtimeError := by
  have hb := (loads_ordered text n h).1
  simp only [Client.create, h, ok_bind, Client.attach, Node.nodeData, (C47_record_port_violated n hb side p hp hn false).1,
    error_bind]

/-- C86: for every other text that can be loaded, a client is created exactly if node data can be made of the node's ports
and the definition text, and the definition text can be made. -/
theorem C86_created (text : Str) (n : Node) (h : (Parser.new.loads text).2 = .ok n)
    (hn : ∀ side, ∀ p ∈ n.ports side, p.elem.NoNumbers) :
    ∃ t, n.definitionText false = .ok t ∧ ∀ c, Client.create text = .ok c ↔
      ∃ nd, c.attached = some (n, nd) ∧
        NodeData.build n.named (n.requires.map Port.toNPort) (n.provides.map Port.toNPort) t = .ok nd := by
  have hb := (loads_ordered text n h).1
  obtain ⟨t, ht⟩ := ((C47_written_iff n hb false).1 hn).1
  refine ⟨t, ht, fun c => ?_⟩
  simp only [Client.create, h, ok_bind, Client.attach, Node.nodeData, ht, bind_ok_iff, Except.ok.injEq]
  constructor
  · rintro ⟨nd, h1, rfl⟩
    exact ⟨nd, rfl, h1⟩
  · rintro ⟨nd, h1, h2⟩
    refine ⟨nd, h2, ?_⟩
    cases c
    cases h1
    rfl

/-- The text a node publishes the second time is such a text. -/
example : ∃ n, (Parser.new.loads agText).2 = .ok n ∧ ∃ p ∈ n.ports .provide, ¬ p.elem.NoNumbers := by
  have h : (match (Parser.new.loads agText).2 with
      | .ok n => decide (n.provides.map Port.elem = [.record (.cons (some ['x']) (.refId 0) .nil) none])
      | .error _ => false) = true := by decide +kernel
  cases hn : (Parser.new.loads agText).2 with
  | error x => rw [hn] at h; cases h
  | ok n =>
    rw [hn] at h
    rw [decide_eq_true_eq] at h
    refine ⟨n, rfl, ?_⟩
    have : Elem.record (.cons (some ['x']) (.refId 0) .nil) none ∈ n.provides.map Port.elem := by simp [h]
    obtain ⟨p, hp, he⟩ := List.mem_map.mp this
    exact ⟨p, hp, by rw [he]; simp [Elem.NoNumbers, Fields.NoNumbers]⟩

end Apx
