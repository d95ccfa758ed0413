import Verif.Props.Tools

/-! C76: where splitting fails, for all definitions. -/

namespace Apx

theorem found_port {n : Node} {x : Str} {side : Side} {p : Port} (h : n.find x = some (.port side p)) :
    p ∈ n.ports side ∧ p.name = x ∧ x ∉ n.types.map TypeObj.name := by
  by_cases ht : x ∈ n.types.map TypeObj.name
  · exfalso
    obtain ⟨t, h1, h2⟩ := List.mem_map.mp ht
    unfold Node.find at h
    cases hx : n.types.find? (fun u => u.name = x) with
    | none =>
      rw [List.find?_eq_none] at hx
      exact absurd (hx t h1) (by simpa using h2)
    | some u => rw [hx] at h; simp at h
  · rcases find_cases n x ht with ⟨h0, _⟩ | ⟨s, q, h0, h1, h2⟩
    · rw [h0] at h; cases h
    · rw [h0] at h
      simp only [Option.some.injEq, Found.port.injEq] at h
      obtain ⟨rfl, rfl⟩ := h
      exact ⟨h1, h2, ht⟩

theorem setPorts_same (m : Node) (side : Side) (l : List Port) : (m.setPorts side l).ports side = l :=
  (setPorts_facts m side l).2.2.2.1

theorem setPorts_else (m : Node) (side s : Side) (l : List Port) (h : s ≠ side) : (m.setPorts side l).ports s = m.ports s := by
  have : s = side.flip := by
    cases s <;> cases side <;> first | rfl | exact absurd rfl h
  subst this
  exact (setPorts_facts m side l).2.2.2.2

theorem portNames_apart {n : Node} (h : n.portNames.Nodup) : (n.provides.map Port.name).Nodup ∧
    (n.requires.map Port.name).Nodup ∧ ∀ x ∈ n.provides.map Port.name, x ∉ n.requires.map Port.name := by
  have := List.nodup_append.mp h
  exact ⟨this.2.1, this.1, fun x h1 h2 => this.2.2 x h2 x h1 rfl⟩

/-- What copying a port does to the ports. -/
theorem addPortFrom_ports {n m src : Node} {side : Side} {p q : Port} {ig : Bool}
    (h : n.addPortFrom src side p ig = (m, .ok q)) :
    ∀ s, ∀ r ∈ m.ports s, r ∈ n.ports s ∨ (s = side ∧ r.name = p.name) := by
  have hr := addPortFrom_result n src side p ig
  rw [h] at hr
  cases hr with
  | existing q' _ _ => exact fun _ _ hr => .inl hr
  | added k _ c _ _ hg _ hc _ _ ha =>
    obtain ⟨h1, rfl⟩ := addPort_cases _ _ _ _ _ ha
    have hname : q.name = p.name := by
      have := (resolvePort_id_name _ _ _ h1).2.1
      rw [this]
      exact hc
    intro s r hr
    have hk : ∀ s, k.ports s = n.ports s := by
      intro s
      cases s
      · exact hg.req
      · exact hg.prov
    by_cases hs : s = side
    · subst hs
      rw [setPorts_same, hk] at hr
      rcases List.mem_append.mp hr with hr | hr
      · exact .inl hr
      · simp only [List.mem_singleton] at hr
        subst hr
        exact .inr ⟨rfl, hname⟩
    · rw [setPorts_else _ _ _ _ hs, hk] at hr
      exact .inl hr

theorem splitHead_ports {src : Node} (names : List Str) : ∀ (h0 : Node) (done0 : List Str) (h : Node) (done : List Str),
    splitHead src h0 done0 names = .ok (h, done) →
    (∀ side, ∀ q ∈ h.ports side, q ∈ h0.ports side ∨ ∃ p, src.find q.name = some (.port side p)) ∧
    (∀ x ∈ done0, x ∈ done) ∧ (∀ x ∈ names, ∀ side p, src.find x = some (.port side p) → x ∈ done) := by
  induction names with
  | nil =>
    intro h0 done0 h done e
    simp only [splitHead, Except.ok.injEq, Prod.mk.injEq] at e
    obtain ⟨rfl, rfl⟩ := e
    exact ⟨fun _ _ hq => .inl hq, fun _ hx => hx, fun x hx => by simp at hx⟩
  | cons x names ih =>
    intro h0 done0 h done e
    unfold splitHead at e
    split at e
    · rename_i hf
      obtain ⟨h1, h2, h3⟩ := ih _ _ _ _ e
      refine ⟨h1, h2, fun y hy side p hp => ?_⟩
      rcases List.mem_cons.mp hy with rfl | hy
      · rw [hf] at hp; cases hp
      · exact h3 y hy side p hp
    · rename_i t hf
      split at e
      · obtain ⟨h1, h2, h3⟩ := ih _ _ _ _ e
        refine ⟨h1, h2, fun y hy side p hp => ?_⟩
        rcases List.mem_cons.mp hy with rfl | hy
        · rw [hf] at hp; cases hp
        · exact h3 y hy side p hp
      · cases e
    · rename_i side p hf
      obtain ⟨_, hpx, _⟩ := found_port hf
      split at e
      · rename_i hd
        obtain ⟨h1, h2, h3⟩ := ih _ _ _ _ e
        refine ⟨h1, h2, fun y hy s q hq => ?_⟩
        rcases List.mem_cons.mp hy with rfl | hy
        · exact h2 _ (hpx ▸ hd)
        · exact h3 y hy s q hq
      · split at e
        · rename_i h' q' ha
          obtain ⟨h1, h2, h3⟩ := ih _ _ _ _ e
          refine ⟨fun s q hq => ?_, fun y hy => h2 y (by simp [hy]), fun y hy s q hq => ?_⟩
          · rcases h1 s q hq with hq | hq
            · rcases addPortFrom_ports ha s q hq with hq | ⟨rfl, hn⟩
              · exact .inl hq
              · exact .inr ⟨p, by rw [hn, hpx]; exact hf⟩
            · exact .inr hq
          · rcases List.mem_cons.mp hy with rfl | hy
            · exact h2 _ (by simp [hpx])
            · exact h3 y hy s q hq
        · cases e

theorem splitHead_done {src : Node} (names : List Str) : ∀ (h0 : Node) (done0 : List Str) (h : Node) (done : List Str),
    splitHead src h0 done0 names = .ok (h, done) → ∀ x ∈ done, x ∈ done0 ∨ x ∈ names := by
  induction names with
  | nil =>
    intro h0 done0 h done e x hx
    simp only [splitHead, Except.ok.injEq, Prod.mk.injEq] at e
    obtain ⟨rfl, rfl⟩ := e
    exact .inl hx
  | cons y names ih =>
    intro h0 done0 h done e x hx
    have tl : x ∈ done0 ∨ x ∈ names → x ∈ done0 ∨ x ∈ y :: names := fun h => h.imp id (List.mem_cons_of_mem _)
    unfold splitHead at e
    split at e
    · exact tl (ih _ _ _ _ e x hx)
    · split at e
      · exact tl (ih _ _ _ _ e x hx)
      · cases e
    · rename_i side p hf
      split at e
      · exact tl (ih _ _ _ _ e x hx)
      · split at e
        · rcases ih _ _ _ _ e x hx with h | h
          · rcases List.mem_cons.mp h with rfl | h
            · rw [(found_port hf).2.1]; exact .inr (by simp)
            · exact .inl h
          · exact tl (.inr h)
        · cases e

theorem splitTail_ports {src : Node} {done : List Str} {side : Side} (ps : List Port) : ∀ (t0 t : Node),
    splitTail src done side t0 ps = .ok t → ∀ s, ∀ q ∈ t.ports s, q ∈ t0.ports s ∨ (s = side ∧ ∃ p ∈ ps, p.name = q.name ∧ q.name ∉ done) := by
  induction ps with
  | nil =>
    intro t0 t e s q hq
    simp only [splitTail, Except.ok.injEq] at e
    subst e
    exact .inl hq
  | cons p ps ih =>
    intro t0 t e s q hq
    unfold splitTail at e
    split at e
    · rcases ih _ _ e s q hq with h | ⟨h1, r, h2, h3⟩
      · exact .inl h
      · exact .inr ⟨h1, r, by simp [h2], h3⟩
    · rename_i hd
      split at e
      · rename_i t' q' ha
        rcases ih _ _ e s q hq with h | ⟨h1, r, h2, h3⟩
        · rcases addPortFrom_ports ha s q h with h | ⟨h1, h2⟩
          · exact .inl h
          · exact .inr ⟨h1, p, by simp, h2.symm, h2 ▸ hd⟩
        · exact .inr ⟨h1, r, by simp [h2], h3⟩
      · cases e

theorem mirrorIf_names {n m : Node} {b : Bool} (h : mirrorIf b n = .ok m) (side : Side) :
    (m.ports (side.flipIf b)).map Port.name = (n.ports side).map Port.name := by
  unfold mirrorIf at h
  cases b with
  | false =>
    simp only [Bool.false_eq_true, if_false, Except.ok.injEq] at h
    subst h
    rfl
  | true =>
    simp only [if_true] at h
    rw [mirror_names n m none h]
    cases side <;> rfl

theorem finalize_portNames {n m : Node} {sort compact : Bool} (h : n.finalize sort compact = .ok m) (side : Side) :
    ((m.ports side).map Port.name).Perm ((n.ports side).map Port.name) := by
  unfold Node.finalize at h
  split at h
  · cases h
    exact .refl _
  · simp only [bind_ok_iff, Except.ok.injEq] at h
    obtain ⟨k, h1, rfl⟩ := h
    have h2 : (k.ports side).map Port.name = ((n.sortElements sort).ports side).map Port.name := by
      obtain ⟨_, _, _, h3⟩ := resolveTypes_ok _ _ h1
      exact map_ok_map (h3 side) _ _ (fun x y e => (resolvePort_id_name _ _ _ e).2.1)
    have h4 : ∀ k : Node, ({ k.setTypeIds with isFinalized := true } : Node).ports side = k.ports side := by
      intro k; cases side <;> rfl
    have h5 : ((if compact then k.compactTypes else k).ports side) = k.ports side := by
      cases compact <;> cases side <;> rfl
    rw [h4, h5, h2, sortElements_ports]
    split
    · exact (sortedByName_perm _ _).map _
    · exact .refl _

/-- C76 fails for every definition in which a port is required and another of the same name provided, neither having
the name of a type: if that name is given and the tool succeeds, neither what is written as head nor what is written as
tail has the provided port. -/
theorem C76_pair_violated (a : SplitArgs) (text : Str) (src : Node) (hsrc : parseFile text = .ok src) (f : Str)
    (htail : a.tail = some f) (x : Str) (hx : x ∈ a.names) (ht : x ∉ src.types.map TypeObj.name)
    (hr : ∃ r ∈ src.requires, r.name = x) (_hp : ∃ p ∈ src.provides, p.name = x) (hok : (apxSplit a text).result = .ok ()) :
    ∃ head tail : Node, apxSplit a text = (head.emit a.head true).andThen (fun _ => tail.saveApx f true) ∧
      (∀ q ∈ head.ports (Side.provide.flipIf a.mirror), q.name ≠ x) ∧ ∀ side, ∀ q ∈ tail.ports side, q.name ≠ x := by
  have hfind : ∃ r, src.find x = some (.port .require r) := by
    unfold Node.find
    have h0 : src.types.find? (fun t => t.name = x) = none := by
      rw [List.find?_eq_none]
      intro t h
      simp only [List.mem_map, not_exists, not_and] at ht
      simpa using ht t h
    simp only [h0]
    obtain ⟨r, h1, h2⟩ := hr
    cases h3 : src.requires.find? (fun p => p.name = x) with
    | some q => exact ⟨q, rfl⟩
    | none =>
      rw [List.find?_eq_none] at h3
      exact absurd (h3 r h1) (by simpa using h2)
  obtain ⟨r, hf⟩ := hfind
  cases hh : splitHeadNode a src with
  | error e => simp [apxSplit, hsrc, splitNode, hh, ToolRun.raised] at hok
  | ok hd =>
    obtain ⟨head, done⟩ := hd
    have he : apxSplit a text = (head.emit a.head true).andThen fun _ => splitRemain a src done := by
      simp only [apxSplit, hsrc, splitNode, hh]
    cases htl : splitTailNode a f src done with
    | error e =>
      rw [he] at hok
      simp only [ToolRun.andThen, splitRemain, htail, htl, ToolRun.raised] at hok
      split at hok <;> simp at hok
    | ok tail =>
      refine ⟨head, tail, by simp only [he, splitRemain, htail, htl], ?_, ?_⟩
      · simp only [splitHeadNode, bind_ok_iff, Except.ok.injEq, Prod.mk.injEq] at hh
        obtain ⟨⟨h, d⟩, h1, m, h2, k, h3, rfl, rfl⟩ := hh
        intro q hq hqx
        have hk : ∃ q' ∈ m.ports (Side.provide.flipIf a.mirror), q'.name = x := by
          have := finalize_portNames h3 (Side.provide.flipIf a.mirror)
          have hm : x ∈ (k.ports (Side.provide.flipIf a.mirror)).map Port.name := List.mem_map.mpr ⟨q, hq, hqx⟩
          exact List.mem_map.mp (this.mem_iff.mp hm)
        obtain ⟨q', hq', hn'⟩ := hk
        have hm : x ∈ (h.ports .provide).map Port.name := by
          rw [← mirrorIf_names h2]
          exact List.mem_map.mpr ⟨q', hq', hn'⟩
        obtain ⟨q2, hq2, hn2⟩ := List.mem_map.mp hm
        rcases (splitHead_ports _ _ _ _ _ h1).1 .provide q2 hq2 with h0 | ⟨p, hp⟩
        · simp [Node.new, Node.ports] at h0
        · rw [hn2, hf] at hp
          cases hp
      · simp only [splitHeadNode, bind_ok_iff, Except.ok.injEq, Prod.mk.injEq] at hh
        obtain ⟨⟨h, d⟩, h1, m, h2, k, h3, rfl, rfl⟩ := hh
        have hxd := (splitHead_ports _ _ _ _ _ h1).2.2 x hx _ _ hf
        simp only [splitTailNode, bind_ok_iff] at htl
        obtain ⟨t0, k1, t1, k2, k3⟩ := htl
        intro side q hq hqx
        rcases splitTail_ports _ _ _ k3 side q hq with h0 | ⟨_, _, _, _, h0⟩
        · rcases splitTail_ports _ _ _ k2 side q h0 with h0 | ⟨_, _, _, _, h0⟩
          · have : t0 = Node.new (nodeNameFor (some f) a.tailName) := by
              cases hb : a.mirror <;> rw [hb] at k1 <;> (cases k1; rfl)
            subst this
            cases side <;> simp [Node.new, Node.ports] at h0
          · exact h0 (hqx ▸ hxd)
        · exact h0 (hqx ▸ hxd)

/-- A definition with a required and a provided port of one name. -/
def smText : Str := "APX/1.2\nN\"X\"\nP\"A\"S\nP\"B\"C\nR\"A\"C\n".toList

/-- Its node. -/
def smSrc : Node := ((parseFile smText).toOption).getD (Node.new [])

example : parseFile smText = .ok smSrc ∧ ['A'] ∉ smSrc.types.map TypeObj.name ∧ (∃ r ∈ smSrc.requires, r.name = ['A']) ∧
    (∃ p ∈ smSrc.provides, p.name = ['A']) ∧ (apxSplit (tlArgs [['A']] true) smText).result = .ok () :=
  ⟨ok_of_isSome (by decide +kernel), by decide +kernel,
    List.mem_map.mp (by decide +kernel : ['A'] ∈ smSrc.requires.map Port.name),
    List.mem_map.mp (by decide +kernel : ['A'] ∈ smSrc.provides.map Port.name), by decide +kernel⟩

/-! ### Types that are other names of types -/

/-- The type named `m` of the node is another name of a type. -/
def Node.IsAlias (src : Node) (m : Str) : Prop := ∀ e, ⟨m, e⟩ ∈ src.named → ∃ k t, e = .refType k t

theorem isAlias_of_mem {src : Node} (hi : NodeInv src) {m k : Str} {e : Elem} (h : ⟨m, .refType k e⟩ ∈ src.named) : src.IsAlias m := by
  intro e' he
  obtain ⟨t, ht, h1, h2⟩ := mem_named h
  obtain ⟨u, hu, h3, h4⟩ := mem_named he
  have h5 := typeNamed_of_mem hi ht
  have h6 := typeNamed_of_mem hi hu
  rw [h1] at h5
  rw [h3, h5] at h6
  cases h6
  exact ⟨k, e, h4.symm.trans h2⟩

theorem cloneType_named (n src : Node) (name : Str) (e : Elem) :
    ∀ t ∈ (n.cloneType src name e).1.types, t ∈ n.types ∨ t.name = name := by
  unfold Node.cloneType
  split
  · rename_i n' t h
    simp only [bind_ok_iff] at h
    obtain ⟨s, _, c, h2, h3⟩ := h
    have hc : c.name = name := by
      simp only [mkType, bind_ok_iff, Except.ok.injEq] at h2
      obtain ⟨_, _, _, _, rfl⟩ := h2
      rfl
    intro u hu
    rcases addType_cases n n' c t h3 with ⟨rfl, _, _⟩ | ⟨_, e', _, _, rfl, rfl⟩
    · exact .inl hu
    · rcases List.mem_append.mp hu with hu | hu
      · exact .inl hu
      · simp only [List.mem_singleton] at hu
        subst hu
        exact .inr hc
  · exact fun _ ht => .inl ht

mutual
theorem addTypeFrom_noAlias {src : Node} {m : Str} (hi : NodeInv src) (ha : src.IsAlias m) (n : Node) (name : Str) : (e : Elem) →
    ⟨name, e⟩ ∈ src.named → (∀ t ∈ n.types, t.name ≠ m) → ∀ t ∈ (n.addTypeFrom src name e).1.types, t.name ≠ m
  | .prim tc mn mx a, hm, hn, t, ht => by
    simp only [Node.addTypeFrom] at ht
    rcases cloneType_named _ _ _ _ t ht with h | h
    · exact hn t h
    · intro he
      subst h
      subst he
      obtain ⟨k, u, hk⟩ := ha _ hm
      cases hk
  | .record fs a, hm, hn, t, ht => by
    have hr : fs.RefsIn src.named := by
      obtain ⟨u, hu, _, h2⟩ := mem_named hm
      have := hi.refs u hu
      rw [h2] at this
      exact this
    have hfs := addFieldsFrom_noAlias hi ha n fs hr hn
    simp only [Node.addTypeFrom] at ht
    split at ht
    · rename_i n' h
      rw [h] at hfs
      rcases cloneType_named _ _ _ _ t ht with h | h
      · exact hfs t h
      · intro he
        subst h
        subst he
        obtain ⟨k, u, hk⟩ := ha _ hm
        cases hk
    · rename_i n' x h
      rw [h] at hfs
      exact hfs t ht
  | .refId _, _, hn, t, ht => hn t ht
  | .refName _, _, hn, t, ht => hn t ht
  | .refType _ _, _, hn, t, ht => hn t ht
theorem addFieldsFrom_noAlias {src : Node} {m : Str} (hi : NodeInv src) (ha : src.IsAlias m) (n : Node) : (fs : Fields) →
    fs.RefsIn src.named → (∀ t ∈ n.types, t.name ≠ m) → ∀ t ∈ (n.addFieldsFrom src fs).1.types, t.name ≠ m
  | .nil, _, hn, t, ht => hn t ht
  | .cons _ (.refType k e) r, hr, hn, t, ht => by
    have h1 := addTypeFrom_noAlias hi ha n k e hr.1 hn
    simp only [Node.addFieldsFrom] at ht
    split at ht
    · rename_i n' _ h
      rw [h] at h1
      exact addFieldsFrom_noAlias hi ha n' r hr.2 h1 t ht
    · rename_i n' x h
      rw [h] at h1
      exact h1 t ht
  | .cons _ (.refId _) _, _, hn, t, ht => hn t ht
  | .cons _ (.refName _) _, _, hn, t, ht => hn t ht
  | .cons _ (.prim _ _ _ _) r, hr, hn, t, ht => addFieldsFrom_noAlias hi ha n r hr.2 hn t ht
  | .cons _ (.record _ _) r, hr, hn, t, ht => addFieldsFrom_noAlias hi ha n r hr.2 hn t ht
end

/-- Copying a port of a built node never adds a type that is another name of a type, and a port referring to such a
type is not copied. -/
theorem addPortFrom_noAlias {src : Node} {m : Str} (hi : NodeInv src) (ha : src.IsAlias m) {n n' : Node} {side : Side} {p q : Port} {ig : Bool}
    (hp : p ∈ src.ports side) (hn : ∀ t ∈ n.types, t.name ≠ m) (h : n.addPortFrom src side p ig = (n', .ok q)) :
    (∀ t ∈ n'.types, t.name ≠ m) ∧ (∀ e, p.elem = .refType m e → ∃ r, n.portNamed p.name = some r) := by
  unfold Node.addPortFrom at h
  split at h
  · cases h
  · rename_i q' hd
    cases h
    refine ⟨hn, fun e _ => ?_⟩
    unfold Node.checkDuplicate at hd
    split at hd
    · cases hd
    · rename_i hq; exact ⟨_, hq⟩
  · split at h
    · cases h
    · rename_i c hc
      have key : ∀ {n : Node} {c : Port} {n' : Node} {q : Port}, (∀ t ∈ n.types, t.name ≠ m) → n.addPortM side c = (n', .ok q) →
          ∀ t ∈ n'.types, t.name ≠ m := by
        intro n c n' q hn h
        unfold Node.addPortM at h
        split at h
        · rename_i k r hk
          cases h
          obtain ⟨_, rfl⟩ := addPort_cases _ _ _ _ _ hk
          rw [setPorts_types]
          exact hn
        · cases h
      split at h
      · cases h
      · cases h
      · rename_i name e he
        have hm : ⟨name, e⟩ ∈ src.named := by
          obtain ⟨m', t', h1, h2, _⟩ := (hi.ports side p hp).ref (by rw [he]; rfl)
          rw [he] at h1
          cases h1
          exact h2
        have ht : (∀ t ∈ (n.targetType src name e).1.types, t.name ≠ m) ∧ (name = m → ∃ x, (n.targetType src name e).2 = .error x) := by
          have hnone : name = m → ∀ t, n.find name ≠ some (.type t) := by
            rintro rfl t hf
            unfold Node.find at hf
            cases hx : n.types.find? (fun u => u.name = name) with
            | none =>
              rw [hx] at hf
              dsimp only at hf
              split at hf
              · cases hf
              · cases hq : n.provides.find? (fun p => p.name = name) <;> rw [hq] at hf <;> cases hf
            | some u =>
              exact hn u (List.mem_of_find?_eq_some hx) (by simpa using List.find?_some hx)
          unfold Node.targetType
          dsimp only
          split
          · refine ⟨addTypeFrom_noAlias hi ha n name e hm hn, ?_⟩
            rintro rfl
            obtain ⟨k, t, rfl⟩ := ha e hm
            exact ⟨_, rfl⟩
          · rename_i t hf
            refine ⟨by split <;> exact hn, fun e => absurd hf (hnone e t)⟩
          · split <;> exact ⟨hn, fun _ => ⟨_, rfl⟩⟩
        split at h
        · cases h
        · rename_i k t hk
          rw [hk] at ht
          refine ⟨key ht.1 h, fun e' he' => ?_⟩
          rw [he] at he'
          cases he'
          obtain ⟨x, hx⟩ := ht.2 rfl
          cases hx
      · rename_i h1 h2 h3
        exact ⟨key hn h, fun e he => absurd he (h3 m e)⟩

/-- The names of the ports of the head are among the names done. -/
theorem portNamed_mem {n : Node} {x : Str} {side : Side} {q : Port} (h : n.portNamed x = some (side, q)) :
    q ∈ n.ports side ∧ q.name = x := by
  unfold Node.portNamed at h
  split at h
  · rename_i p hp
    cases h
    exact ⟨List.mem_of_find?_eq_some hp, by simpa using List.find?_some hp⟩
  · cases hq : n.requires.find? (fun p => p.name = x) with
    | none => rw [hq] at h; cases h
    | some p =>
      rw [hq] at h
      cases h
      exact ⟨List.mem_of_find?_eq_some hq, by simpa using List.find?_some hq⟩

theorem splitHead_alias {src : Node} {m : Str} (hi : NodeInv src) (ha : src.IsAlias m) (names : List Str) :
    ∀ (h0 : Node) (done0 : List Str) (h : Node) (done : List Str), (∀ t ∈ h0.types, t.name ≠ m) →
    (∀ side, ∀ q ∈ h0.ports side, q.name ∈ done0) → splitHead src h0 done0 names = .ok (h, done) →
    ∀ x ∈ names, ∀ side p e, src.find x = some (.port side p) → p.elem = .refType m e → x ∈ done0 := by
  induction names with
  | nil => intro h0 done0 h done _ _ _ x hx; simp at hx
  | cons y names ih =>
    intro h0 done0 h done hn hd e
    unfold splitHead at e
    split at e
    · rename_i hf
      intro x hx side p e' hp he
      rcases List.mem_cons.mp hx with rfl | hx
      · rw [hf] at hp; cases hp
      · exact ih _ _ _ _ hn hd e x hx side p e' hp he
    · rename_i t hf
      split at e
      · intro x hx side p e' hp he
        rcases List.mem_cons.mp hx with rfl | hx
        · rw [hf] at hp; cases hp
        · exact ih _ _ _ _ hn hd e x hx side p e' hp he
      · cases e
    · rename_i side p hf
      obtain ⟨hpm, hpy, _⟩ := found_port hf
      split at e
      · rename_i hdone
        intro x hx side' p' e' hp he
        rcases List.mem_cons.mp hx with rfl | hx
        · exact hpy ▸ hdone
        · exact ih _ _ _ _ hn hd e x hx side' p' e' hp he
      · rename_i hnd
        split at e
        · rename_i h' q' hadd
          obtain ⟨k1, k2⟩ := addPortFrom_noAlias hi ha hpm hn hadd
          have hne : ∀ e, p.elem ≠ .refType m e := by
            intro e he
            obtain ⟨⟨s, r⟩, hr⟩ := k2 e he
            obtain ⟨h1, h2⟩ := portNamed_mem hr
            exact hnd (h2 ▸ hd s r h1)
          have hd' : ∀ side, ∀ q ∈ h'.ports side, q.name ∈ p.name :: done0 := by
            intro s q hq
            rcases addPortFrom_ports hadd s q hq with hq | ⟨_, hq⟩
            · exact List.mem_cons_of_mem _ (hd s q hq)
            · rw [hq]; simp
          intro x hx side' p' e' hp he
          rcases List.mem_cons.mp hx with rfl | hx
          · rw [hf] at hp
            cases hp
            exact absurd he (hne e')
          · have := ih _ _ _ _ k1 hd' e x hx side' p' e' hp he
            rcases List.mem_cons.mp this with rfl | h
            · exfalso
              rw [hpy] at hp
              rw [hf] at hp
              cases hp
              exact hne e' he
            · exact h
        · cases e

/-- C76 fails for every port named whose type is another name of a type: nothing is written. -/
theorem C76_alias_violated (a : SplitArgs) (text : Str) (src : Node) (hsrc : parseFile text = .ok src) (x : Str)
    (hx : x ∈ a.names) (side : Side) (p : Port) (hf : src.find x = some (.port side p)) (m k : Str) (e : Elem)
    (he : p.elem = .refType m (.refType k e)) : ∃ err, apxSplit a text = ⟨[], .error err⟩ := by
  have hi := (parseFile_built hsrc).1.inv
  have hm : ⟨m, .refType k e⟩ ∈ src.named := by
    obtain ⟨m', t', h1, h2, _⟩ := (hi.ports side p (found_port hf).1).ref (by rw [he]; rfl)
    rw [he] at h1
    cases h1
    exact h2
  have ha := isAlias_of_mem hi hm
  cases hh : splitHead src (Node.new (nodeNameFor a.head a.headName)) [] a.names with
  | error err =>
    exact ⟨err, by simp only [apxSplit, hsrc, splitNode, splitHeadNode, hh, error_bind]; rfl⟩
  | ok r =>
    have := splitHead_alias hi ha a.names _ _ r.1 r.2 (by simp [Node.new])
      (by intro s q hq; cases s <;> simp [Node.new, Node.ports] at hq) hh x hx side p _ hf he
    simp at this

theorem splitTail_alias {src : Node} {m : Str} (hi : NodeInv src) (ha : src.IsAlias m) {done : List Str} {side : Side}
    (ps : List Port) (hps : ∀ p ∈ ps, p ∈ src.ports side) (hu : (ps.map Port.name).Nodup) : ∀ (t0 t : Node), (∀ u ∈ t0.types, u.name ≠ m) →
    (∀ s, ∀ q ∈ t0.ports s, q.name ∉ ps.map Port.name) → splitTail src done side t0 ps = .ok t →
    (∀ u ∈ t.types, u.name ≠ m) ∧ ∀ p ∈ ps, ∀ e, p.elem = .refType m e → p.name ∈ done := by
  induction ps with
  | nil =>
    intro t0 t hn _ e
    simp only [splitTail, Except.ok.injEq] at e
    subst e
    exact ⟨hn, fun p hp => by simp at hp⟩
  | cons p ps ih =>
    have hu' := List.nodup_cons.mp (by simpa using hu : (p.name :: ps.map Port.name).Nodup)
    intro t0 t hn hd e
    unfold splitTail at e
    split at e
    · rename_i hp
      obtain ⟨h1, h2⟩ := ih (fun q hq => hps q (by simp [hq])) hu'.2 t0 t hn
        (fun s q hq hc => hd s q hq (by simp only [List.map_cons, List.mem_cons]; exact .inr hc)) e
      refine ⟨h1, fun q hq e he => ?_⟩
      rcases List.mem_cons.mp hq with rfl | hq
      · exact hp
      · exact h2 q hq e he
    · split at e
      · rename_i t' q' hadd
        obtain ⟨k1, k2⟩ := addPortFrom_noAlias hi ha (hps p (by simp)) hn hadd
        obtain ⟨h1, h2⟩ := ih (fun q hq => hps q (by simp [hq])) hu'.2 t' t k1 (by
          intro s q hq hc
          rcases addPortFrom_ports hadd s q hq with hq | ⟨_, hq⟩
          · exact hd s q hq (by simp only [List.map_cons, List.mem_cons]; exact .inr hc)
          · rw [hq] at hc; exact hu'.1 hc) e
        refine ⟨h1, fun q hq e he => ?_⟩
        rcases List.mem_cons.mp hq with rfl | hq
        · exfalso
          obtain ⟨⟨s, r⟩, hr⟩ := k2 e he
          obtain ⟨h3, h4⟩ := portNamed_mem hr
          exact hd s r h3 (by simp [h4])
        · exact h2 q hq e he
      · cases e

/-- C76 fails for every port that is not named and has such a type, if no two ports have the same name: the head can be
written, but the tail is not. -/
theorem C76_half_violated (a : SplitArgs) (text : Str) (src : Node) (hsrc : parseFile text = .ok src) (hu : src.portNames.Nodup)
    (f : Str) (htail : a.tail = some f) (head : Node) (done : List Str) (hh : splitHeadNode a src = .ok (head, done))
    (hw : (head.emit a.head true).result = .ok ()) (side : Side) (p : Port) (hp : p ∈ src.ports side) (hn : p.name ∉ a.names)
    (m k : Str) (e : Elem) (he : p.elem = .refType m (.refType k e)) :
    ∃ err, apxSplit a text = ⟨(head.emit a.head true).written, .error err⟩ := by
  have hi := (parseFile_built hsrc).1.inv
  have hm : ⟨m, .refType k e⟩ ∈ src.named := by
    obtain ⟨m', t', h1, h2, _⟩ := (hi.ports side p hp).ref (by rw [he]; rfl)
    rw [he] at h1
    cases h1
    exact h2
  have ha := isAlias_of_mem hi hm
  have hrun : ∀ r, splitRemain a src done = r → r.written = [] → (∃ err, r.result = .error err) →
      ∃ err, apxSplit a text = ⟨(head.emit a.head true).written, .error err⟩ := by
    rintro r h1 h2 ⟨err, h3⟩
    refine ⟨err, ?_⟩
    simp only [apxSplit, hsrc, splitNode, hh, ToolRun.andThen, hw, h1, h2, h3, List.append_nil]
  cases htl : splitTailNode a f src done with
  | error err => exact hrun (.raised err) (by simp only [splitRemain, htail, htl]) rfl ⟨err, rfl⟩
  | ok t =>
    exfalso
    have hdone : p.name ∉ done := by
      simp only [splitHeadNode, bind_ok_iff, Except.ok.injEq, Prod.mk.injEq] at hh
      obtain ⟨⟨h, d⟩, h1, _, _, _, _, _, rfl⟩ := hh
      exact fun hc => by
        rcases splitHead_done _ _ _ _ _ h1 _ hc with h | h
        · simp at h
        · exact hn h
    simp only [splitTailNode, bind_ok_iff] at htl
    obtain ⟨t0, k1, t1, k2, k3⟩ := htl
    have : t0 = Node.new (nodeNameFor (some f) a.tailName) := by
      cases hb : a.mirror <;> rw [hb] at k1 <;> (cases k1; rfl)
    subst this
    have hups := portNames_apart hu
    obtain ⟨g1, g2⟩ := splitTail_alias (side := .provide) hi ha src.provides (fun _ h => h) hups.1 _ _ (by simp [Node.new])
      (by intro s q hq; cases s <;> simp [Node.new, Node.ports] at hq) k2
    cases side with
    | provide => exact hdone (g2 p hp _ he)
    | require =>
      refine hdone ((splitTail_alias (side := .require) hi ha src.requires (fun _ h => h) hups.2.1 _ _ g1 ?_ k3).2 p hp _ he)
      intro s q hq hc
      rcases splitTail_ports _ _ _ k2 s q hq with h0 | ⟨_, r, h1, h2, _⟩
      · cases s <;> simp [Node.new, Node.ports] at h0
      · exact hups.2.2 _ (List.mem_map.mpr ⟨r, h1, h2⟩) hc

/-- A definition with a type that is another name of a type. -/
def smText2 : Str := "APX/1.2\nN\"X\"\nT\"T\"C\nT\"U\"T[\"T\"]\nP\"A\"C\nP\"B\"T[\"U\"]\n".toList

/-- Its node. -/
def smSrc2 : Node := ((parseFile smText2).toOption).getD (Node.new [])

theorem smSrc2_ports : smSrc2.provides.map (fun p => (p.name, p.elem)) =
    [(['A'], .prim .u8 none none none), (['B'], .refType ['U'] (.refType ['T'] (.prim .u8 none none none)))] := by
  decide +kernel

example : parseFile smText2 = .ok smSrc2 ∧ smSrc2.portNames.Nodup ∧
    (∃ p ∈ smSrc2.provides, (p.name, p.elem) = (['B'], .refType ['U'] (.refType ['T'] (.prim .u8 none none none)))) ∧
    (∃ head done, splitHeadNode (tlArgs [['A']] false) smSrc2 = .ok (head, done) ∧
      (head.emit (some "h.apx".toList) true).result = .ok ()) := by
  refine ⟨ok_of_isSome (by decide +kernel), by decide +kernel, List.mem_map.mp (by rw [smSrc2_ports]; simp), ?_⟩
  have h : ((splitHeadNode (tlArgs [['A']] false) smSrc2).toOption.map fun r => (r.1.emit (some "h.apx".toList) true).result) = some (.ok ()) := by
    decide +kernel
  cases hh : splitHeadNode (tlArgs [['A']] false) smSrc2 with
  | error e => rw [hh] at h; cases h
  | ok r =>
    rw [hh] at h
    exact ⟨r.1, r.2, rfl, Option.some.inj h⟩

/-- C76 fails for `--mirror`, documented to mirror head and tail, with every definition that has a port not named: the
tail has it with the direction it had. -/
theorem C76_mirror_violated (a : SplitArgs) (text : Str) (src : Node) (hsrc : parseFile text = .ok src)
    (hs : src.Splittable) (hnames : ∀ x ∈ a.names, x ∉ src.types.map TypeObj.name) (f : Str) (htail : a.tail = some f)
    (hn : NameOk (nodeNameFor a.head a.headName)) (hn' : NameOk (nodeNameFor (some f) a.tailName)) (_ : a.mirror = true)
    (side : Side) (p : Port) (hp : p ∈ src.ports side) (hpn : p.name ∉ a.names) :
    ∃ headText tailText tail, apxSplit a text = ⟨[(destOf a.head, headText), (.file f, tailText)], .ok ()⟩ ∧
      parseFile tailText = .ok tail ∧ (∃ q ∈ tail.ports side, q.name = p.name) ∧ ∀ q ∈ tail.ports side.flip, q.name ≠ p.name := by
  obtain ⟨ht, tt, head, tail, h1, _, h3, _, _, h6⟩ := C76_split_partial a text src hsrc hs hnames f htail hn hn'
  refine ⟨ht, tt, tail, h1, h3, ?_, ?_⟩
  · have hm : p.content ∈ tail.contents side := by
      rw [(h6 side).2.1.mem_iff]
      exact List.mem_filter.mpr ⟨List.mem_map.mpr ⟨p, hp, rfl⟩, decide_eq_true (by exact hpn)⟩
    obtain ⟨q, hq, hqc⟩ := List.mem_map.mp hm
    exact ⟨q, hq, congrArg Prod.fst hqc⟩
  · intro q hq hc
    have hm := ((h6 side.flip).2.1.mem_iff (a := q.content)).mp (List.mem_map.mpr ⟨q, hq, rfl⟩)
    obtain ⟨r, hr, hrc⟩ := List.mem_map.mp (List.mem_filter.mp hm).1
    have hrn : r.name = p.name := (congrArg Prod.fst hrc).trans hc
    have hu := portNames_apart hs.names
    cases side with
    | provide => exact hu.2.2 _ (List.mem_map.mpr ⟨p, hp, rfl⟩) (List.mem_map.mpr ⟨r, hr, hrn⟩)
    | require => exact hu.2.2 _ (List.mem_map.mpr ⟨r, hr, hrn⟩) (List.mem_map.mpr ⟨p, hp, rfl⟩)

end Apx
