import Verif.Props.OrderMore

/-! C47: types written under short names. -/

namespace Apx

/-- The types in the node being read have names from `S`. -/
def Parser.Within (S : Str → Prop) (st : Parser) : Prop :=
  st.cs ≠ .start → ∀ m, st.node = some m → ∀ t ∈ m.types, S t.name

/-- A line that, if it defines a type, gives it a name from `S`. -/
def Line.Within (S : Str → Prop) (l : Line) : Prop :=
  l.kind = some ['T'] → ∀ a, l.args = .ok a → S a.1

theorem typeLine_within {S : Str → Prop} {st : Parser} {l : Line} (hst : ∀ m, st.node = some m → ∀ t ∈ m.types, S t.name)
    (hl : ∀ a, l.args = .ok a → S a.1) : (st.typeLine l).1.Within S := by
  intro _
  unfold Parser.typeLine
  split
  · rename_i n t h
    simp only [bind_ok_iff] at h
    obtain ⟨⟨name, dsg, attr⟩, h1, t0, h2, h3⟩ := h
    have hn := hl _ h1
    simp only [mkType, bind_ok_iff, Except.ok.injEq] at h2
    obtain ⟨e, -, a, ha, rfl⟩ := h2
    split at h3
    · cases h3
    rename_i n0 hn0
    intro m hm
    simp only [Option.some.injEq] at hm
    subst hm
    rcases addType_cases _ _ _ _ h3 with ⟨rfl, -⟩ | ⟨-, e, -, -, rfl, rfl⟩
    · exact hst _ hn0
    · intro t ht
      simp only [List.mem_append, List.mem_cons, List.not_mem_nil, or_false] at ht
      rcases ht with ht | rfl
      · exact hst _ hn0 t ht
      · exact hn
  · exact hst

theorem portLine_within {S : Str → Prop} {st : Parser} {side : Side} {l : Line}
    (hst : ∀ m, st.node = some m → ∀ t ∈ m.types, S t.name) : (st.portLine side l).1.Within S := by
  intro _
  unfold Parser.portLine
  split
  · rename_i n t h
    simp only [bind_ok_iff] at h
    obtain ⟨⟨name, dsg, attr⟩, h1, t0, h2, h3⟩ := h
    split at h3
    · cases h3
    rename_i n0 hn0
    intro m hm
    simp only [Option.some.injEq] at hm
    subst hm
    obtain ⟨-, rfl⟩ := addPort_cases _ _ _ _ _ h3
    rw [setPorts_types]
    exact hst _ hn0
  · exact hst

theorem processLine_within {S : Str → Prop} {st : Parser} (hst : st.Within S) {s : Str} (hs : (splitLine s).Within S) :
    (st.processLine s).1.Within S := by
  unfold Parser.processLine Parser.processParts
  split
  · exact hst
  cases hcs : st.cs
  all_goals simp only
  · split
    · intro _ n hn
      simp only [Option.some.injEq] at hn
      subst hn
      intro t ht
      cases ht
    · exact hst
  all_goals
    have hst' := hst (by rw [hcs]; decide)
    repeat' split
    all_goals first
      | (rename_i hk; exact typeLine_within hst' (hs hk))
      | exact portLine_within hst'
      | exact hst

/-- A port line that names a type which is not in `S` is refused. -/
theorem processLine_unknown {S : Str → Prop} {st : Parser} (hst : st.Within S) {s : Str} (side : Side) (name dsg u : Str)
    (attr : Option Str) (hs : splitLine s = .full [side.letter] (some name) dsg attr)
    (hd : dataSignature dsg = .ok (.refName u)) (hu : ¬ S u) : ∃ x, (st.processLine s).2 = .error x := by
  have key : ∀ st' : Parser, st'.node = st.node → st.cs ≠ .start →
      ∃ x, (st'.portLine side (.full [side.letter] (some name) dsg attr)).2 = .error x := by
    intro st' he hc
    unfold Parser.portLine
    split
    · rename_i n t h
      simp only [bind_ok_iff] at h
      obtain ⟨a, h1, t0, h2, h3⟩ := h
      simp only [Line.args, Except.ok.injEq] at h1
      subst h1
      simp only [mkPort, hd, ok_bind, bind_ok_iff, Except.ok.injEq] at h2
      obtain ⟨a, ha, rfl⟩ := h2
      split at h3
      · cases h3
      rename_i n0 hn0
      obtain ⟨h4, -⟩ := addPort_cases _ _ _ _ _ h3
      have h5 := hst hc n0 (he ▸ hn0)
      unfold resolvePort at h4
      rw [if_pos (by rfl), bind_ok_iff] at h4
      obtain ⟨e, h6, -⟩ := h4
      simp only [resolveDsg, bind_ok_iff] at h6
      obtain ⟨e', h7, -⟩ := h6
      simp only [Elem.resolveType] at h7
      split at h7
      · rename_i w hw
        obtain ⟨g1, g2⟩ := findType_mem _ _ _ hw
        obtain ⟨t, ht, rfl⟩ := List.mem_map.mp g1
        exact absurd (g2 ▸ h5 t ht) hu
      · cases h7
    · exact ⟨_, rfl⟩
  unfold Parser.processLine
  rw [hs]
  unfold Parser.processParts
  rw [if_neg (by simp)]
  cases hcs : st.cs
  all_goals simp only
  · rw [if_neg (by cases side <;> simp [Line.kind, Side.letter])]
    exact ⟨_, rfl⟩
  all_goals
    have hc : st.cs ≠ .start := by rw [hcs]; decide
    cases side <;> simp only [Line.kind, Side.letter] at key ⊢ <;> exact key _ rfl hc

theorem processLines_unknown {S : Str → Prop} (ls : List Str) (hls : ∀ l ∈ ls, (splitLine l).Within S) (l : Str) (hl : l ∈ ls)
    (hbad : ∀ st : Parser, st.Within S → ∃ x, (st.processLine l).2 = .error x) :
    ∀ st : Parser, st.Within S → ∃ x, (st.processLines ls).2 = .error x := by
  induction ls with
  | nil => cases hl
  | cons k ls ih =>
    intro st hst
    unfold Parser.processLines
    have h1 := processLine_within hst (hls k (by simp))
    split
    · rename_i st' h
      rw [h] at h1
      rcases List.mem_cons.mp hl with rfl | hl
      · obtain ⟨x, hx⟩ := hbad st hst
        rw [h] at hx
        cases hx
      · exact ih (fun l hl => hls l (by simp [hl])) hl st' h1
    · exact ⟨_, rfl⟩

/-- What is asked of a node to be written under the short names its types may have. -/
structure Node.WritableShort (n : Node) : Prop where
  name : NameOk n.name
  types : ∀ t ∈ n.types, NameOk (t.shortName.getD t.name) ∧ t.elem.WellFormed ∧ t.elem.Clean ∧
    ∀ a, t.attr = some a → AttrOk a.str
  ports : ∀ side, ∀ p ∈ n.ports side, NameOk p.name ∧ p.elem.WellFormed ∧ p.elem.Clean ∧
    ∀ a, p.attr = some a → AttrOk a.str

theorem mapPy_lines {α : Type} (f : α → Py Str) (Q : α → Str → Prop) (l : List α) (h : ∀ x ∈ l, ∃ s, f x = .ok s ∧ Q x s) :
    ∃ ls, mapPy f l = .ok ls ∧ (∀ s ∈ ls, ∃ x ∈ l, Q x s) ∧ ∀ x ∈ l, ∃ s ∈ ls, Q x s := by
  induction l with
  | nil => exact ⟨[], rfl, by simp, by simp⟩
  | cons x l ih =>
    obtain ⟨ls, h1, h2, h3⟩ := ih (fun y hy => h y (by simp [hy]))
    obtain ⟨s, h4, h5⟩ := h x (by simp)
    refine ⟨s :: ls, by simp [mapPy, h4, h1], ?_, ?_⟩
    · intro t ht
      rcases List.mem_cons.mp ht with rfl | ht
      · exact ⟨x, by simp, h5⟩
      · obtain ⟨y, hy, hq⟩ := h2 t ht
        exact ⟨y, by simp [hy], hq⟩
    · intro y hy
      rcases List.mem_cons.mp hy with rfl | hy
      · exact ⟨s, by simp, h5⟩
      · obtain ⟨t, ht, hq⟩ := h3 y hy
        exact ⟨t, by simp [ht], hq⟩

theorem port_lines_short {n : Node} (hw : n.WritableShort) (nm : Bool) (side : Side) :
    ∃ ls, mapPy (Port.toStr n.ids nm side) (n.ports side) = .ok ls ∧
      (∀ l ∈ ls, ∃ p ∈ n.ports side, '\n' ∉ l ∧ ∃ s, dataSignature s = .ok (p.elem.asWritten n.ids nm) ∧
        splitLine l = .full [side.letter] (some p.name) s (p.attr.map PortAttr.str)) ∧
      ∀ p ∈ n.ports side, ∃ l ∈ ls, '\n' ∉ l ∧ ∃ s, dataSignature s = .ok (p.elem.asWritten n.ids nm) ∧
        splitLine l = .full [side.letter] (some p.name) s (p.attr.map PortAttr.str) := by
  apply mapPy_lines _ (fun (p : Port) l => '\n' ∉ l ∧ ∃ s, dataSignature s = .ok (p.elem.asWritten n.ids nm) ∧
    splitLine l = .full [side.letter] (some p.name) s (p.attr.map PortAttr.str))
  intro p hp
  obtain ⟨hw1, hw2, hw3, hw5⟩ := hw.ports side p hp
  obtain ⟨s, h1, h2⟩ := Elem.parse_toStr_data n.ids nm p.elem hw2
  obtain ⟨hl, hnl⟩ := splitLine_lineText side.letter p.name s (p.attr.map PortAttr.str) (by cases side <;> decide)
    (by cases side <;> decide) hw1
    (Elem.toStr_ends _ _ _ _ h1) (fun c hc => Elem.toStr_no_cut n.ids nm p.elem hw3 hw2 s h1 c hc)
    (by
      intro a ha
      rw [Option.map_eq_some_iff] at ha
      obtain ⟨b, hb, rfl⟩ := ha
      exact hw5 b hb)
  exact ⟨lineText side.letter p.name s (p.attr.map PortAttr.str), by simp [Port.toStr, h1], hnl, s, h2, hl⟩

theorem type_lines_short {n : Node} (hw : n.WritableShort) :
    ∃ ls, mapPy (TypeObj.toStr n.ids false) n.types = .ok ls ∧
      ∀ l ∈ ls, ∃ t ∈ n.types, '\n' ∉ l ∧ ∃ s a, splitLine l = .full ['T'] (some (t.shortName.getD t.name)) s a := by
  obtain ⟨ls, h1, h2, -⟩ := mapPy_lines (TypeObj.toStr n.ids false) (fun t l => '\n' ∉ l ∧ ∃ s a,
      splitLine l = .full ['T'] (some (t.shortName.getD t.name)) s a) n.types (by
    intro t ht
    obtain ⟨hw1, hw2, hw3, hw5⟩ := hw.types t ht
    obtain ⟨s, h1, -⟩ := Elem.parse_toStr_data n.ids false t.elem hw2
    obtain ⟨hl, hnl⟩ := splitLine_lineText 'T' (t.shortName.getD t.name) s (t.attr.map TypeAttr.str) (by decide) (by decide) hw1
      (Elem.toStr_ends _ _ _ _ h1) (fun c hc => Elem.toStr_no_cut n.ids false t.elem hw3 hw2 s h1 c hc)
      (by
        intro a ha
        rw [Option.map_eq_some_iff] at ha
        obtain ⟨b, hb, rfl⟩ := ha
        exact hw5 b hb)
    exact ⟨lineText 'T' (t.shortName.getD t.name) s (t.attr.map TypeAttr.str), by simp [TypeObj.toStr, h1], hnl, s, _, hl⟩)
  exact ⟨ls, h1, h2⟩

theorem short_unreadable {n : Node} (hw : n.WritableShort) (side : Side) (p : Port) (hp : p ∈ n.ports side) (u : Str) (e : Elem)
    (he : p.elem = .refType u e) (hu : ∀ t ∈ n.types, t.shortName.getD t.name ≠ u) :
    ∃ ls, n.lines true = .ok ls ∧ ls ≠ [] ∧ OneLiners ls ∧ ∀ o tail,
      ∃ x, (Parser.processLines ⟨o, .start⟩ (ls ++ tail)).2 = .error x := by
  obtain ⟨hn, hnl⟩ := splitLine_node n.name hw.name
  obtain ⟨tl, t1, t2⟩ := type_lines_short hw
  obtain ⟨pl, p1, p2, p3⟩ := port_lines_short hw true .provide
  obtain ⟨rl, r1, r2, r3⟩ := port_lines_short hw true .require
  refine ⟨('N' :: '"' :: (n.name ++ ['"'])) :: (tl ++ pl ++ rl), ?_, by simp, ?_, ?_⟩
  · simp only [Node.ports] at p1 r1
    simp [Node.lines, t1, p1, r1]
  · intro l hl
    simp only [List.mem_cons, List.mem_append] at hl
    rcases hl with rfl | (hl | hl) | hl
    · exact hnl
    · exact (t2 l hl).choose_spec.2.1
    · exact (p2 l hl).choose_spec.2.1
    · exact (r2 l hl).choose_spec.2.1
  · intro o tail
    have hbad : ∃ l ∈ ('N' :: '"' :: (n.name ++ ['"'])) :: (tl ++ pl ++ rl), ∀ st : Parser,
        st.Within (fun s => ∃ t ∈ n.types, t.shortName.getD t.name = s) → ∃ x, (st.processLine l).2 = .error x := by
      have : ∃ l ∈ pl ++ rl, ∃ s, dataSignature s = .ok (p.elem.asWritten n.ids true) ∧
          splitLine l = .full [side.letter] (some p.name) s (p.attr.map PortAttr.str) := by
        cases side
        · obtain ⟨l, hl, -, h⟩ := r3 p hp
          exact ⟨l, by simp [hl], h⟩
        · obtain ⟨l, hl, -, h⟩ := p3 p hp
          exact ⟨l, by simp [hl], h⟩
      obtain ⟨l, hl, s, h1, h2⟩ := this
      rw [he] at h1
      refine ⟨l, ?_, fun st hst => processLine_unknown hst side _ s u _ h2 h1 ?_⟩
      · simp only [List.mem_append, List.mem_cons] at hl ⊢
        rcases hl with hl | hl
        · exact .inr (.inl (.inr hl))
        · exact .inr (.inr hl)
      · rintro ⟨t, ht, e⟩
        exact hu t ht e
    obtain ⟨l, hl, hbad⟩ := hbad
    have key := processLines_unknown (S := fun s => ∃ t ∈ n.types, t.shortName.getD t.name = s)
      (('N' :: '"' :: (n.name ++ ['"'])) :: (tl ++ pl ++ rl)) (by
        intro l hl
        simp only [List.mem_cons, List.mem_append] at hl
        rcases hl with rfl | (hl | hl) | hl
        · rw [hn]; intro hk; simp [Line.kind] at hk
        · obtain ⟨t, ht, -, s, a, h⟩ := t2 l hl
          rw [h]
          intro _ a ha
          simp only [Line.args, Except.ok.injEq] at ha
          subst ha
          exact ⟨t, ht, rfl⟩
        · obtain ⟨q, -, -, s, -, h⟩ := p2 l hl
          rw [h]; intro hk; simp [Line.kind, Side.letter] at hk
        · obtain ⟨q, -, -, s, -, h⟩ := r2 l hl
          rw [h]; intro hk; simp [Line.kind, Side.letter] at hk) l hl hbad ⟨o, .start⟩ (fun h => absurd rfl h)
    obtain ⟨x, hx⟩ := key
    rw [processLines_append]
    split
    · rename_i st' h
      rw [h] at hx
      cases hx
    · exact ⟨_, rfl⟩

theorem compact_writable {n : Node} (hw : n.Writable) (sort : Bool) : (n.finalized sort true).WritableShort := by
  refine ⟨?_, ?_, ?_⟩
  · have : (n.finalized sort true).name = n.name := by
      unfold Node.finalized Node.sortElements
      cases sort <;> rfl
    rw [this]; exact hw.name
  · intro t ht
    rw [finalized_types] at ht
    obtain ⟨i, hi, rfl⟩ := List.mem_mapIdx.mp ht
    have hm : (sortedByName TypeObj.name n.types)[i] ∈ n.types :=
      (sortedByName_perm _ _).mem_iff.mp (List.getElem_mem hi)
    obtain ⟨-, h2, h3, -, h5⟩ := hw.types _ hm
    refine ⟨?_, h2, h3, h5⟩
    simp only [if_true, Option.getD_some]
    refine ⟨?_, ?_, ?_⟩ <;> simp only [List.mem_cons, not_or] <;>
      exact ⟨by decide, intStr_not_mem _ _ (by decide)⟩
  · intro side p hp
    rw [finalized_ports] at hp
    apply hw.ports side
    split at hp
    · exact (sortedByName_perm _ _).mem_iff.mp hp
    · exact hp

/-- C47 is violated by compact names: in every node whose types are given the names T0, T1, … when it is finalized, a
port that uses a type with any other name makes the normalized text unreadable. The types are written under the short
names, while the ports refer to them by their full names. -/
theorem C47_compact_violated (n : Node) (hb : n.Built) (hw : n.Writable) (hf : n.isFinalized = false) (sort : Bool)
    (side : Side) (p : Port) (hp : p ∈ n.ports side) (u : Str) (e : Elem) (he : p.elem = .refType u e)
    (hu : ∀ i : Nat, i < n.types.length → u ≠ 'T' :: intStr i) :
    ∃ n' text, n.finalize sort true = .ok n' ∧ n'.dumps true = .ok (n', text) ∧ ∀ st : Parser,
      (∃ x, (st.loads text).2 = .error x) ∧ ∃ x, (st.load text).2 = .error x := by
  have hp' : p ∈ (n.finalized sort true).ports side := by
    rw [finalized_ports]
    split
    · exact (sortedByName_perm _ _).mem_iff.mpr hp
    · exact hp
  obtain ⟨ls, h1, hne, h2, h3⟩ := short_unreadable (compact_writable hw sort) side p hp' u e he (by
    intro t ht
    rw [finalized_types] at ht
    obtain ⟨i, hi, rfl⟩ := List.mem_mapIdx.mp ht
    rw [(sortedByName_perm _ _).length_eq] at hi
    simp only [if_true, Option.getD_some]
    exact (hu i hi).symm)
  have ht : headerText ++ ('\n' :: (joinLines ls ++ ['\n'])) = joinLines (headerText :: ls) ++ ['\n'] := by
    cases ls with
    | nil => exact absurd rfl hne
    | cons l ls => simp [joinLines]
  refine ⟨_, headerText ++ ('\n' :: (joinLines ls ++ ['\n'])), finalize_eq n sort true hb.inv.toNodeInv0 hf, ?_, ?_⟩
  · have hfin : (n.finalized sort true).isFinalized = true := rfl
    simp [Node.dumps, hfin, h1]
  intro st
  obtain ⟨e1, e2⟩ := firstOther_header h2
  rw [ht]
  have hv : parseHeaderLine (rstripNewline headerText) = some ('1', '2') := by decide
  obtain ⟨x, hx⟩ := h3 st.node [[]]
  constructor
  · rw [loads_eq, e1, e2, hv]
    simp only [ne_eq, reduceCtorEq, not_false_eq_true, not_true_eq_false, and_false, if_false]
    split
    · exact ⟨_, rfl⟩
    · rename_i h; rw [h] at hx; cases hx
  · rw [load_eq, e1, e2, hv]
    simp only [ne_eq, reduceCtorEq, not_false_eq_true, not_true_eq_false, and_false, if_false]
    split
    · exact ⟨_, rfl⟩
    · rename_i h; rw [h] at hx; cases hx

/-- Such a node: its port p refers to the type B. -/
example : ((Node.new ['N']).run rtOps).Built ∧ ((Node.new ['N']).run rtOps).Writable ∧
    ((Node.new ['N']).run rtOps).isFinalized = false ∧
    ∃ p ∈ ((Node.new ['N']).run rtOps).ports .provide, ∃ e, p.elem = .refType ['B'] e ∧
      ∀ i : Nat, ['B'] ≠ 'T' :: intStr i := by
  refine ⟨⟨['N'], rtOps, rfl⟩, rtOps_writable, by decide +kernel, ?_⟩
  have h := rtOps_ports.1
  obtain ⟨p, l, h1, h2, -⟩ := List.map_eq_cons_iff.mp h
  simp only [Prod.mk.injEq] at h2
  exact ⟨p, by simp only [Node.ports]; rw [h1]; simp, _, h2.2.1, fun i hc => by simp at hc⟩

end Apx
