import Verif.Spec.Client
import Verif.Props.NodeData
import Verif.Props.Node

/-! C54: reading and writing ports through a client. -/

namespace Apx

/-- Node data can only be built for a node whose port identifiers are the positions. -/
theorem nodeData_ids {n : Node} {nd : NodeData} (h : n.nodeData = .ok nd) (side : Side) (k : Nat) (p : Port)
    (hp : (n.ports side)[k]? = some p) : p.id = some k := by
  unfold Node.nodeData at h
  rw [bind_ok_iff] at h
  obtain ⟨text, -, h⟩ := h
  have hw := build_wf h
  have key : ∀ {d : Dir} {ps : List Port} {rs : List PortRange} {cs bs : List Bytes} {size : Nat},
      Consecutive 0 0 rs size → PortsOk d n.named (ps.map Port.toNPort) rs cs bs → ps[k]? = some p → p.id = some k := by
    intro d ps rs cs bs size hc hok hp
    obtain ⟨r, c, b, h1, _, _, h2⟩ := hok.get (i := k) (p := p.toNPort) (by rw [List.getElem?_map, hp]; rfl)
    have hid : r.id = k := by have := (hc.get h1).1; omega
    have h3 := h2.1
    simp only [Port.toNPort, hid, Option.map_eq_some_iff] at h3
    obtain ⟨j, h4, h5⟩ := h3
    rw [h4]
    have : j = k := Int.ofNat.inj h5
    rw [this]
  cases side with
  | require => obtain ⟨bs, hok⟩ := hw.inP; exact key hw.inC hok hp
  | provide => obtain ⟨bs, hok⟩ := hw.outP; exact key hw.outC hok hp

theorem For.ids {c : Client} {n : Node} {nd : NodeData} (h : c.For n nd) (side : Side) (k : Nat) (p : Port)
    (hp : (n.ports side)[k]? = some p) : p.id = some k := by
  obtain ⟨nd0, as, h1, -, -⟩ := h
  unfold Client.attach at h1
  rw [bind_ok_iff] at h1
  obtain ⟨nd1, h2, h3⟩ := h1
  exact nodeData_ids h2 side k p hp

/-- A name designating a port is found if no type has the name. -/
theorem find_designated {n : Node} {indexed side : Side} {k : Nat} {s : Str}
    (h : Designates n indexed side k (.name s)) (ht : ∀ t ∈ n.types, t.name ≠ s) :
    ∃ p, n.find s = some (.port side p) ∧ (n.ports side)[k]? = some p := by
  obtain ⟨p, hp, hname⟩ := (h side k).mpr ⟨rfl, rfl⟩
  have htn : n.types.find? (fun t => decide (t.name = s)) = none := by
    rw [List.find?_eq_none]
    intro t hm
    simpa using ht t hm
  have hfind : ∀ side', ((n.ports side').find? fun q => decide (q.name = s)) = if side' = side then some p else none := by
    intro side'
    by_cases hs : side' = side
    · rw [if_pos hs]
      subst hs
      cases hf : (n.ports side').find? fun q => decide (q.name = s) with
      | none =>
        rw [List.find?_eq_none] at hf
        exact absurd hname (by simpa using hf p (List.mem_of_getElem? hp))
      | some q =>
        have hq := List.find?_some hf
        obtain ⟨j, hj⟩ := List.getElem?_of_mem (List.mem_of_find?_eq_some hf)
        have := (h side' j).mp ⟨q, hj, by simpa using hq⟩
        rw [this.2, hp] at hj
        exact hj.symm
    · rw [if_neg hs, List.find?_eq_none]
      intro q hq
      obtain ⟨j, hj⟩ := List.getElem?_of_mem hq
      intro hn
      exact hs ((h side' j).mp ⟨q, hj, by simpa using hn⟩).1
  refine ⟨p, ?_, hp⟩
  have h1 := hfind .require
  have h2 := hfind .provide
  simp only [Node.ports] at h1 h2
  unfold Node.find
  rw [htn]
  simp only
  rw [h1, h2]
  cases side <;> simp

theorem pyIndex_nat {α : Type} (l : List α) (k : Nat) (x : α) (h : l[k]? = some x) : pyIndex l (k : Int) = .ok x := by
  unfold pyIndex
  rw [if_neg (by omega)]
  simp [h]

theorem pyIndex_out {α : Type} (l : List α) (i : Int) (h : i < -(l.length : Int) ∨ (l.length : Int) ≤ i) :
    pyIndex l i = .error .indexError := by
  unfold pyIndex
  by_cases hi : i < 0
  · rw [if_pos hi, if_neg (by omega)]
  · rw [if_neg hi, List.getElem?_eq_none (by omega)]

/-- Reading aims at the designated port. -/
theorem readTarget_designated {c : Client} {n : Node} {nd : NodeData} (hc : c.For n nd) (side : Side) (k : Nat)
    (d : Designator) (hd : Designates n .require side k d) (hp : d.Proper n side k)
    (ht : ∀ s, d = .name s → ∀ t ∈ n.types, t.name ≠ s) : n.readTarget d = .ok ⟨side, some k⟩ := by
  obtain ⟨p, hk, hid⟩ := hp
  have hpid := For.ids hc side k p hk
  cases d with
  | port r =>
    obtain ⟨h1, h2⟩ := hd
    have h3 := hid r rfl
    rw [hpid] at h3
    have hlt := (List.getElem?_eq_some_iff.mp hk).1
    simp only [Node.readTarget, samePort]
    rw [h3, h1]
    simp only
    rw [if_pos hlt]
    simp [h2]
  | name s =>
    obtain ⟨q, h1, h2⟩ := find_designated hd (ht s rfl)
    rw [hk] at h2; cases h2
    unfold Node.readTarget
    simp only [h1, hpid]
  | index i =>
    obtain ⟨h1, h2⟩ := hd
    subst h1; subst h2
    simp only [Node.readTarget]
    simp only [Node.ports] at hk
    rw [pyIndex_nat _ _ _ hk]
    simp [hpid]
  | other => exact hd.elim

/-- C54, reading: through a port object of the node, the name of a port (that is not also the name of
another port or of a type) or the number of a require port, the client reads that port, whatever has
been read and written before. -/
theorem C54_read_partial (c : Client) (n : Node) (nd : NodeData) (hc : c.For n nd) (side : Side) (k : Nat)
    (d : Designator) (hd : Designates n .require side k d) (hp : d.Proper n side k)
    (ht : ∀ s, d = .name s → ∀ t ∈ n.types, t.name ≠ s) :
    (side = .require → ∀ nd' o, nd.readRequire k = (nd', o) →
      ∃ o', c.read d = (⟨some (n, nd')⟩, o') ∧
        (∀ v, o = .ok v → o' = .ok (some (.val v))) ∧ (∀ x, o = .raised x → o' = .raised x) ∧ (o = .blocked → o' = .blocked)) ∧
    (side = .provide → ∃ v, nd.readProvide k = .ok v ∧ c.read d = (c, .ok (some v))) := by
  have htgt := readTarget_designated hc side k d hd hp ht
  obtain ⟨nd0, as, h1, h2, h3⟩ := hc
  subst h3
  constructor
  · intro hs nd' o hr
    subst hs
    unfold Client.read
    simp only [htgt, hr]
    cases o with
    | ok v => exact ⟨_, rfl, by simp, by simp, by simp⟩
    | raised x => exact ⟨_, rfl, by simp, by simp, by simp⟩
    | blocked => exact ⟨_, rfl, by simp, by simp, by simp⟩
  · intro hs
    subst hs
    obtain ⟨p, hk, -⟩ := hp
    unfold Client.attach at h1
    rw [bind_ok_iff] at h1
    obtain ⟨nd1, hnd, h1⟩ := h1
    simp only [Except.ok.injEq, Client.mk.injEq, Option.some.injEq, Prod.mk.injEq, true_and] at h1
    subst h1
    unfold Node.nodeData at hnd
    rw [bind_ok_iff] at hnd
    obtain ⟨text, -, hnd⟩ := hnd
    have hw := (build_wf hnd).run as
    rw [← h2] at hw
    obtain ⟨bs, hok⟩ := hw.outP
    obtain ⟨r, _, _, h4, _⟩ := hok.get (i := k) (p := p.toNPort) (by
      simp only [Node.ports] at hk
      rw [List.getElem?_map, hk]; rfl)
    have hid : r.id = k := by have := (hw.outC.get h4).1; omega
    have hv := hw.vals
    have hlt : k < nd.outValues.length := by
      have := (List.getElem?_eq_some_iff.mp hk).1
      simp only [Node.ports] at this
      simp at hv
      omega
    refine ⟨nd.outValues[k], ?_, ?_⟩
    · unfold NodeData.readProvide
      rw [(lookupRange_ok hw.outC k r).mpr ⟨k, rfl, h4⟩]
      simp [hid, hlt]
    · unfold Client.read
      simp only [htgt]
      have : nd.readProvide k = .ok nd.outValues[k] := by
        unfold NodeData.readProvide
        rw [(lookupRange_ok hw.outC k r).mpr ⟨k, rfl, h4⟩]
        simp [hid, hlt]
      rw [this]

/-- Writing aims at the designated provide port. -/
theorem writeTarget_designated {c : Client} {n : Node} {nd : NodeData} (hc : c.For n nd) (k : Nat)
    (d : Designator) (hd : Designates n .provide .provide k d) (hp : d.Proper n .provide k)
    (ht : ∀ s, d = .name s → ∀ t ∈ n.types, t.name ≠ s) : n.writeTarget d = .ok (some k) := by
  obtain ⟨p, hk, hid⟩ := hp
  have hpid := For.ids hc .provide k p hk
  cases d with
  | port r =>
    obtain ⟨h1, h2⟩ := hd
    have h3 := hid r rfl
    rw [hpid] at h3
    have hlt := (List.getElem?_eq_some_iff.mp hk).1
    simp only [Node.writeTarget, samePort]
    rw [h3]
    simp only
    rw [if_pos hlt]
    simp [h1, h2]
  | name s =>
    obtain ⟨q, h1, h2⟩ := find_designated hd (ht s rfl)
    rw [hk] at h2; cases h2
    unfold Node.writeTarget
    simp only [h1, hpid]
  | index i =>
    obtain ⟨h1, h2⟩ := hd
    subst h2
    simp only [Node.writeTarget]
    simp only [Node.ports] at hk
    rw [pyIndex_nat _ _ _ hk]
    simp [hpid]
  | other => exact hd.elim

/-- C54, writing: through a provide port object of the node, its name (that is not also the name of
another port or of a type) or its number, the client writes that port. -/
theorem C54_write_partial (c : Client) (n : Node) (nd : NodeData) (hc : c.For n nd) (k : Nat)
    (d : Designator) (hd : Designates n .provide .provide k d) (hp : d.Proper n .provide k)
    (ht : ∀ s, d = .name s → ∀ t ∈ n.types, t.name ≠ s) (v : PyVal) (nd' : NodeData) (o : Outcome (Nat × Bytes))
    (hw : nd.writeProvide k v = (nd', o)) :
    ∃ o', c.write d v = (⟨some (n, nd')⟩, o') ∧
      (∀ w, o = .ok w → o' = .ok ()) ∧ (∀ x, o = .raised x → o' = .raised x) ∧ (o = .blocked → o' = .blocked) := by
  have htgt := writeTarget_designated hc k d hd hp ht
  obtain ⟨nd0, as, h1, h2, h3⟩ := hc
  subst h3
  unfold Client.write
  simp only [htgt, hw]
  cases o with
  | ok v => exact ⟨_, rfl, by simp, by simp, by simp⟩
  | raised x => exact ⟨_, rfl, by simp, by simp, by simp⟩
  | blocked => exact ⟨_, rfl, by simp, by simp, by simp⟩

theorem find_nothing {n : Node} {indexed : Side} {s : Str} (h : DesignatesNothing n indexed (.name s)) : n.find s = none := by
  obtain ⟨h1, h2⟩ := h
  have ht : n.types.find? (fun t => decide (t.name = s)) = none := by
    rw [List.find?_eq_none]; intro t hm; simpa using h2 t hm
  have hr : n.requires.find? (fun t => decide (t.name = s)) = none := by
    rw [List.find?_eq_none]; intro t hm; simpa using h1 .require t hm
  have hp : n.provides.find? (fun t => decide (t.name = s)) = none := by
    rw [List.find?_eq_none]; intro t hm; simpa using h1 .provide t hm
  unfold Node.find
  rw [ht, hr, hp]; rfl

/-- C54: a designator that designates nothing raises, for reading and for writing, and the client is
unchanged. -/
theorem C54_unknown (n : Node) (nd : NodeData) (d : Designator) (v : PyVal) :
    (DesignatesNothing n .require d → ∃ x, (Client.mk (some (n, nd))).read d = (⟨some (n, nd)⟩, .raised x)) ∧
    (DesignatesNothing n .provide d → ∃ x, (Client.mk (some (n, nd))).write d v = (⟨some (n, nd)⟩, .raised x)) := by
  constructor
  · intro h
    have : ∃ x, n.readTarget d = .error x := by
      cases d with
      | port r =>
        simp only [Node.readTarget, samePort]
        cases r.id with
        | none => exact ⟨_, rfl⟩
        | some k =>
          simp only
          split
          · have : r.pos = none := h
            exact ⟨.valueError, by simp [this]⟩
          · exact ⟨_, rfl⟩
      | name s => exact ⟨.attributeError, by simp only [Node.readTarget, find_nothing h]⟩
      | index i => exact ⟨.indexError, by simp only [Node.readTarget]; rw [pyIndex_out n.requires _ h]; rfl⟩
      | other => exact ⟨_, rfl⟩
    obtain ⟨x, hx⟩ := this
    exact ⟨x, by unfold Client.read; simp only [hx]⟩
  · intro h
    have : ∃ x, n.writeTarget d = .error x := by
      cases d with
      | port r =>
        simp only [Node.writeTarget, samePort]
        cases r.id with
        | none => exact ⟨_, rfl⟩
        | some k =>
          simp only
          split
          · have : r.pos = none := h
            simp only [this, ok_bind]
            split
            · rename_i hh; simp at hh
            · split <;> exact ⟨_, rfl⟩
          · exact ⟨_, rfl⟩
      | name s => exact ⟨.attributeError, by simp only [Node.writeTarget, find_nothing h]⟩
      | index i => exact ⟨.indexError, by simp only [Node.writeTarget]; rw [pyIndex_out n.provides _ h]; rfl⟩
      | other => exact ⟨_, rfl⟩
    obtain ⟨x, hx⟩ := this
    exact ⟨x, by unfold Client.write; simp only [hx]⟩

/-- C54: a require port cannot be written: neither through the object nor through its name. -/
theorem C54_require_not_writable (n : Node) (nd : NodeData) (v : PyVal) :
    (∀ r : PortRef, r.side = .require →
      ∃ x, (Client.mk (some (n, nd))).write (.port r) v = (⟨some (n, nd)⟩, .raised x)) ∧
    (∀ p ∈ n.requires, ∃ x, (Client.mk (some (n, nd))).write (.name p.name) v = (⟨some (n, nd)⟩, .raised x)) := by
  constructor
  · intro r hr
    have : ∃ x, n.writeTarget (.port r) = .error x := by
      simp only [Node.writeTarget, samePort]
      cases r.id with
      | none => exact ⟨_, rfl⟩
      | some k =>
        simp only
        split
        · exact ⟨.valueError, by simp [hr]⟩
        · exact ⟨_, rfl⟩
    obtain ⟨x, hx⟩ := this
    exact ⟨x, by unfold Client.write; simp only [hx]⟩
  · intro p hp
    refine ⟨.attributeError, ?_⟩
    have : n.writeTarget (.name p.name) = .error .attributeError := by
      simp only [Node.writeTarget, Node.find]
      split
      · rename_i q hq
        split at hq
        · cases hq
        · split at hq
          · cases hq
          · rename_i hnone
            rw [List.find?_eq_none] at hnone
            exact absurd (by simp) (hnone p hp)
      · rfl
    unfold Client.write
    simp only [this]

/-- C54: a provide port that has no number (after its node was put together by hand) cannot be written by
its place in the list either: nothing changes and ValueError is raised. -/
theorem C54_unnumbered (n : Node) (nd : NodeData) (k : Nat) (p : Port) (h : n.provides[k]? = some p)
    (hid : p.id = none) (v : PyVal) :
    (Client.mk (some (n, nd))).write (.index k) v = (⟨some (n, nd)⟩, .raised .valueError) := by
  have : ¬ ((k : Int) < 0) := by omega
  simp [Client.write, Node.writeTarget, pyIndex, this, h, hid, ok_bind]

example : ({ (Node.new ['N']) with provides := [⟨['p'], .prim .u8 none none none, none, none⟩] } : Node).provides[0]?.map
    Port.id = some none := rfl

/-- C54: without a node, reading gives `None` and writing does nothing; neither raises. -/
theorem C54_without_node (d : Designator) (v : PyVal) :
    (Client.mk none).read d = (⟨none⟩, .ok none) ∧ (Client.mk none).write d v = (⟨none⟩, .ok ()) := ⟨rfl, rfl⟩

section Examples

/-- A type `A`, the provide ports `P` and `Q` and the require ports `R` and `A`. -/
def clOps : List NodeOp :=
  [.addType ['A'] ['C'] none, .addPort .provide ['P'] ['C'] none, .addPort .provide ['Q'] ['S'] none,
   .addPort .require ['R'] ['C'] (some ['=', '5']), .addPort .require ['A'] ['S'] (some ['=', '9'])]

/-- The node built by them, finalized without sorting the ports. -/
def clNode : Node := (Node.new ['N']).run (clOps ++ [.finalize false false])

/-- The value read from a fresh client. -/
def clRead (n : Node) (d : Designator) : Option PyVal :=
  match Client.attach n with
  | .ok c => match c.read d with
    | (_, .ok (some (.val v))) => some v
    | _ => none
  | .error _ => none

/-- The values read from `d'` after writing `v` to `d` on a fresh client. -/
def clWriteRead (n : Node) (d : Designator) (v : PyVal) (d' : Designator) : Option PyVal :=
  match Client.attach n with
  | .ok c => match (c.write d v).1.read d' with
    | (_, .ok (some (.val v))) => some v
    | _ => none
  | .error _ => none

example : clRead clNode (.name ['R']) = some (.int 5) ∧ clRead clNode (.index 0) = some (.int 5) ∧
    clRead clNode (.port ⟨.require, some 1, some 1⟩) = some (.int 9) ∧
    clWriteRead clNode (.name ['Q']) (.int 300) (.port ⟨.provide, some 1, some 1⟩) = some (.int 300) ∧
    clWriteRead clNode (.index 0) (.int 3) (.name ['P']) = some (.int 3) := by decide +kernel

example : Designates clNode .provide .provide 1 (.name ['Q']) ∧ (Designator.name ['Q']).Proper clNode .provide 1 ∧
    (∀ t ∈ clNode.types, t.name ≠ ['Q']) ∧ DesignatesNothing clNode .provide (.name ['Z']) := by
  have hr : clNode.requires.map Port.name = [['R'], ['A']] := by decide +kernel
  have hp : clNode.provides.map Port.name = [['P'], ['Q']] := by decide +kernel
  have ht : clNode.types.map TypeObj.name = [['A']] := by decide +kernel
  have hname : ∀ (side : Side) (k : Nat) (p : Port), (clNode.ports side)[k]? = some p →
      ((clNode.ports side).map Port.name)[k]? = some p.name := by
    intro side k p h; rw [List.getElem?_map, h]; rfl
  have hmem : ∀ side, ∀ p ∈ clNode.ports side, p.name ∈ (clNode.ports side).map Port.name :=
    fun side p h => List.mem_map.mpr ⟨p, h, rfl⟩
  have htm : ∀ t ∈ clNode.types, t.name = ['A'] := by
    intro t h
    have : t.name ∈ clNode.types.map TypeObj.name := List.mem_map.mpr ⟨t, h, rfl⟩
    rw [ht] at this; simpa using this
  have hex : ∃ p, (clNode.ports .provide)[1]? = some p ∧ p.name = ['Q'] := by
    have : (clNode.provides.map Port.name)[1]? = some ['Q'] := by rw [hp]; rfl
    rw [List.getElem?_map, Option.map_eq_some_iff] at this
    exact this
  refine ⟨?_, ?_, ?_, ?_, ?_⟩
  · intro side k
    constructor
    · rintro ⟨p, h1, h2⟩
      have := hname side k p h1
      rw [h2] at this
      cases side with
      | require =>
        simp only [Node.ports, hr] at this
        rcases k with _ | _ | k <;> simp at this
      | provide =>
        simp only [Node.ports, hp] at this
        rcases k with _ | _ | k <;> simp at this
        exact ⟨rfl, rfl⟩
    · rintro ⟨rfl, rfl⟩
      exact hex
  · obtain ⟨p, h1, -⟩ := hex
    exact ⟨p, h1, by simp⟩
  · intro t h; rw [htm t h]; decide
  · intro side p h
    have := hmem side p h
    cases side <;> simp only [Node.ports, hr, hp] at this <;> intro hz <;> rw [hz] at this <;> simp at this
  · intro t h; rw [htm t h]; decide

end Examples

/-- C54 is violated when a type has the name of a port: the name designates the require port `A` and
nothing else, but reading it gives the value of a provide port, the one numbered like the type. -/
example :
    clRead clNode (.name ['A']) = some (.int 0) ∧
    clRead clNode (.port ⟨.require, some 1, some 1⟩) = some (.int 9) ∧
    clWriteRead clNode (.name ['P']) (.int 77) (.name ['A']) = some (.int 77) ∧
    clNode.requires.map Port.name = [['R'], ['A']] ∧ clNode.provides.map Port.name = [['P'], ['Q']] := by
  decide +kernel

/-- C54 is violated by negative numbers, which are no identifiers of ports: they count from the end. -/
example :
    clRead clNode (.index (-1)) = some (.int 9) ∧
    clWriteRead clNode (.index (-1)) (.int 300) (.port ⟨.provide, some 1, some 1⟩) = some (.int 300) := by
  decide +kernel

/-- C54 is violated when a require port and a provide port share a name: the provide port cannot be
written through it. -/
theorem C54_same_name_violated (n : Node) (nd : NodeData) (p q : Port) (hp : p ∈ n.requires) (_hq : q ∈ n.provides)
    (hname : p.name = q.name) (v : PyVal) :
    ∃ x, (Client.mk (some (n, nd))).write (.name q.name) v = (⟨some (n, nd)⟩, .raised x) := by
  rw [← hname]
  exact (C54_require_not_writable n nd v).2 p hp

/-- The example node after its text has been dumped, which sorts its ports. -/
def clSorted : Node := ((Node.new ['N']).run clOps).run [.finalize true false]

/-- C54 is violated after the node's text has been dumped (or the node finalized with sorting) while it
is attached: whatever the node data, the port objects `R` and `A` of the node, which have changed
places, are refused. -/
theorem C54_sorted_violated (nd : NodeData) :
    clSorted.requires.map Port.name = [['A'], ['R']] ∧ clSorted.requires.map Port.id = [some 1, some 0] ∧
    ∀ k id, (clSorted.requires[k]?.map Port.id) = some id →
      (Client.mk (some (clSorted, nd))).read (.port ⟨.require, some k, id⟩) = (⟨some (clSorted, nd)⟩, .raised .valueError) := by
  have h1 : clSorted.requires.map Port.name = [['A'], ['R']] := by decide +kernel
  have h2 : clSorted.requires.map Port.id = [some 1, some 0] := by decide +kernel
  refine ⟨h1, h2, fun k id hk => ?_⟩
  have hlen : clSorted.requires.length = 2 := by have := congrArg List.length h2; simpa using this
  rw [← List.getElem?_map, h2] at hk
  have htgt : clSorted.readTarget (.port ⟨.require, some k, id⟩) = .error .valueError := by
    rcases k with _ | _ | k
    · simp only [List.getElem?_cons_zero, Option.some.injEq] at hk
      subst hk
      simp [Node.readTarget, samePort, Node.ports, hlen]
    · simp only [List.getElem?_cons_succ, List.getElem?_cons_zero, Option.some.injEq] at hk
      subst hk
      simp [Node.readTarget, samePort, Node.ports, hlen]
    · simp at hk
  unfold Client.read
  simp only [htgt]

/-! C63: data listeners. -/

theorem listenerLoop_two (nd : NodeData) (rs : List PortRange) :
    nd.listenerLoop (some ⟨2⟩) rs = nd.notifyLoop rs := by
  induction rs generalizing nd with
  | nil => rfl
  | cons r rs ih =>
    simp only [NodeData.listenerLoop, NodeData.notifyLoop, onRequirePortData, if_true]
    rcases h : nd.unpackRequire r with ⟨nd', o⟩
    cases o with
    | raised x => rfl
    | blocked => rfl
    | ok v =>
      simp only
      rw [ih]
      rfl

theorem listenerLoop_none (nd : NodeData) (rs : List PortRange) :
    nd.listenerLoop none rs = ((nd.notifyLoop rs).1, [], (nd.notifyLoop rs).2.2) := by
  induction rs generalizing nd with
  | nil => rfl
  | cons r rs ih =>
    simp only [NodeData.listenerLoop, NodeData.notifyLoop, onRequirePortData]
    rcases h : nd.unpackRequire r with ⟨nd', o⟩
    cases o with
    | raised x => rfl
    | blocked => rfl
    | ok v =>
      simp only
      rw [ih]
      rfl

theorem listenerLoop_other (n : Nat) (hn : n ≠ 2) (nd : NodeData) (rs : List PortRange) :
    (nd.listenerLoop (some ⟨n⟩) rs).2.1 = [] ∧
    ((nd.notifyLoop rs).2.1 ≠ [] → (nd.listenerLoop (some ⟨n⟩) rs).2.2 = .raised .typeError) := by
  cases rs with
  | nil => exact ⟨rfl, fun h => absurd rfl h⟩
  | cons r rs =>
    simp only [NodeData.listenerLoop, NodeData.notifyLoop, onRequirePortData, if_neg hn]
    rcases h : nd.unpackRequire r with ⟨nd', o⟩
    cases o with
    | raised x => exact ⟨rfl, fun h => absurd rfl h⟩
    | blocked => exact ⟨rfl, fun h => absurd rfl h⟩
    | ok v => exact ⟨rfl, fun _ => rfl⟩

/-- C63 is violated: a listener that implements the documented interface, with the three parameters
`port_id`, `port_name` and `data`, is never called, whatever the peer writes. A write that should
notify it raises `TypeError` instead (in the thread that received the data). -/
theorem C63_documented_violated (nd : NodeData) (off : Nat) (data : Bytes) (more : Bool) :
    (nd.remoteWriteClient (some ⟨3⟩) off data more).2.1 = [] ∧
    ((nd.remoteWrite true off data more).2.1 ≠ [] →
      (nd.remoteWriteClient (some ⟨3⟩) off data more).2.2 = .raised .typeError) := by
  unfold NodeData.remoteWriteClient NodeData.remoteWrite
  cases nd.inFile with
  | none => exact ⟨rfl, fun h => absurd rfl h⟩
  | some f =>
    simp only [NodeData.afterRemote, NodeData.inPortNotify, if_true]
    cases (f.inputWrite off data more true).2.2 with
    | none => exact ⟨rfl, fun h => absurd rfl h⟩
    | some note =>
      simp only
      cases NodeData.byteToPort _ off data.length with
      | error x => exact ⟨rfl, fun h => absurd rfl h⟩
      | ok rs =>
        simp only
        have := listenerLoop_other 3 (by decide) { nd with inFile := some (f.inputWrite off data more true).1 } rs
        revert this
        rcases NodeData.listenerLoop _ _ rs with ⟨nd1, l1, o1⟩
        rcases NodeData.notifyLoop _ rs with ⟨nd2, l2, o2⟩
        rintro ⟨h1, h2⟩
        simp only at h1 h2
        subst h1
        refine ⟨by cases o1 <;> rfl, fun h => ?_⟩
        have : l2 ≠ [] := by cases o2 <;> exact h
        rw [h2 this]

/-- A write that does notify. -/
example : (match ndNode with
    | .ok nd =>
      let r := nd.remoteWriteClient (some ⟨3⟩) 3 [1, 0x61, 0x62, 0x63, 0x64, 9] false
      let r' := nd.remoteWriteClient (some ⟨2⟩) 3 [1, 0x61, 0x62, 0x63, 0x64, 9] false
      decide (r.2.1 = [] ∧ r.2.2 = .raised .typeError ∧ r'.2.1.length = 3 ∧ r'.2.2 = .ok 6)
    | .error _ => false) = true := by decide +kernel

/-- C63, what holds instead: a listener with the two parameters `port` and `data` (as in the examples
coming with the code) is called exactly with the notifications of C34; and if there is no listener,
nothing is called but the data is stored and decoded all the same. -/
theorem C63_two_parameters_partial (nd : NodeData) (off : Nat) (data : Bytes) (more : Bool) :
    nd.remoteWriteClient (some ⟨2⟩) off data more = nd.remoteWrite true off data more ∧
    nd.remoteWriteClient none off data more =
      ((nd.remoteWrite true off data more).1, [], (nd.remoteWrite true off data more).2.2) := by
  unfold NodeData.remoteWriteClient NodeData.remoteWrite
  cases nd.inFile with
  | none => exact ⟨rfl, rfl⟩
  | some f =>
    simp only [NodeData.afterRemote, NodeData.inPortNotify, if_true]
    cases (f.inputWrite off data more true).2.2 with
    | none => exact ⟨rfl, rfl⟩
    | some note =>
      simp only
      cases NodeData.byteToPort _ off data.length with
      | error x => exact ⟨rfl, rfl⟩
      | ok rs =>
        simp only
        rw [listenerLoop_two, listenerLoop_none]
        rcases NodeData.notifyLoop _ rs with ⟨nd2, l2, o2⟩
        cases o2 <;> exact ⟨rfl, rfl⟩

/-- C63, with C34: while the ports written to can be decoded, such a listener is called once for each
port owning one of the bytes written, in port order, with the values just written. -/
theorem C63_values_partial (types : List NamedType) (rq pv : List NPort) (text : Str) (nd : NodeData)
    (hr : nd.Reachable types rq pv text) (f : FileData) (hf : nd.inFile = some f) (off : Nat) (data : Bytes)
    (hd : off + data.length ≤ f.data.length) (new : NodeData) (calls : List (Nat × PyVal)) (n : Int)
    (h : nd.remoteWriteClient (some ⟨2⟩) off data false = (new, calls, .ok n)) :
    n = data.length ∧ new = { nd with inFile := some ⟨put f.data off data⟩ } ∧
    calls.map Prod.fst = (nd.inRanges.filter (PortRange.overlapsB off data.length)).map (·.id) ∧
    ∀ kv ∈ calls, new.readRequire kv.1 = (new, .ok kv.2) := by
  rw [(C63_two_parameters_partial nd off data false).1] at h
  obtain ⟨done, rest, h1, h2, h3, h4⟩ := C34_notified_partial types rq pv text nd hr f hf off data hd
  rw [h] at h2 h3 h4
  simp only at h2 h3 h4
  rcases h4 with ⟨rfl, h5⟩ | ⟨r, rest', rfl, ⟨x, -, h5⟩ | ⟨-, h5⟩⟩
  · simp only [Prod.mk.injEq, Outcome.ok.injEq] at h5
    obtain ⟨rfl, -, rfl⟩ := h5
    refine ⟨rfl, rfl, ?_, h3⟩
    rw [h1, List.append_nil, h2]
  · exact absurd h5 (by simp)
  · exact absurd h5 (by simp)

end Apx
