import Verif.Props.GenFile

/-! C88: exactly which generated files fit together. -/

namespace Apx

/-- C88, exactly: the files generated by a new generator fit together if and only if no two require ports and no two
provide ports have one name and, if there are callbacks, the code is generated under the name of the node, the node has
bytes to receive, and the callbacks are different from each other and from the generated functions. -/
theorem C88_exactly (n : Node) (g : Generated) (hg : generate n = .ok g) (o : GenOptions) (f : GenFiles)
    (hf : genFiles none o g = .ok f) :
    f.Fit ↔ (g.node.requires.map Port.name).Nodup ∧ (g.node.provides.map Port.name).Nodup ∧
      ∀ cb, o.callbacks = some cb → CallbacksApart o g f cb := by
  constructor
  · intro h
    obtain ⟨rs, ps, cbs, c, rd, wd, k1, k2, k3, k4, k5, k6, k7, k8, k9, k10, k11⟩ := genFiles_parts hf
    obtain ⟨c1, c2⟩ := callbackCode_eq k4
    have hheader : f.header.protos = [initProto (o.nameFor g.node), nodeDataProto (o.nameFor g.node),
        connectedProto (o.nameFor g.node)] ++ (rs.map Prod.snd ++ ps.map Prod.snd) ++
        (if g.inLen > 0 then [notifyProto (notifyName (o.nameFor g.node))] else []) := by
      rw [k8]; rfl
    have hsig : g.require.map Signal.name = g.node.requires.map Port.name := by
      obtain ⟨n', h1, h2⟩ := bind_ok_iff.mp hg
      obtain ⟨rs', h3, h2⟩ := bind_ok_iff.mp h2
      obtain ⟨ps', h4, h2⟩ := bind_ok_iff.mp h2
      obtain ⟨ib, h5, h2⟩ := bind_ok_iff.mp h2
      obtain ⟨ob, h6, h2⟩ := bind_ok_iff.mp h2
      simp only [Except.ok.injEq] at h2
      rw [← h2]
      exact (genSignals_each _ _ _ _ _ h3).1
    have honce := h.once
    unfold GenFiles.declared at honce
    rw [List.map_append, List.nodup_append] at honce
    obtain ⟨o1, o2, o3⟩ := honce
    have hnd := o1
    rw [hheader] at hnd
    simp only [List.map_append] at hnd
    rw [protos_funcNames (pre := "ApxNode_Read_".toList ++ o.nameFor g.node) (fun p c h => by
        obtain ⟨t, _, rfl⟩ := readProto_eq h; rfl) k1,
      protos_funcNames (pre := "ApxNode_Write_".toList ++ o.nameFor g.node) (fun p c h => writeProto_name h) k2] at hnd
    have hnd2 := (List.nodup_append.mp (List.nodup_append.mp hnd).1).2.1
    have hinj : ∀ (pre : Str) (l : List Port), (l.map fun p => pre ++ ('_' :: p.name)).Nodup → (l.map Port.name).Nodup := by
      intro pre l hl
      have e : (l.map fun p => pre ++ ('_' :: p.name)) = (l.map Port.name).map fun s => pre ++ ('_' :: s) := by
        rw [List.map_map]; rfl
      rw [e] at hl
      unfold List.Nodup at hl ⊢
      rw [List.pairwise_map] at hl
      exact hl.imp fun h e => h (by rw [e])
    refine ⟨hinj _ _ (List.nodup_append.mp hnd2).1, hinj _ _ (List.nodup_append.mp hnd2).2.1, ?_⟩
    intro cb hcb
    have k3' : mkCbPorts cb g.require = .ok cbs := by simpa [cbPortsOf, hcb] using k3
    have hperm := cbHeader_names (o.nameFor g.node) cbs
    rw [mkCbPorts_callbacks k3', hsig] at hperm
    have hcbp : f.cbProtos = (mkCbHeader (o.nameFor g.node) cbs).protos := by
      unfold GenFiles.cbProtos
      rw [k11]
      simp [hcb]
    -- the handler is declared, and no other function has its type
    obtain ⟨q, hq, e1, e2⟩ := h.handlers ⟨initProto (o.nameFor g.node), .init (initBody g.node.name g.inLen g.outLen o.flags c.handler)⟩
      (by rw [k10]; simp) (notifyName g.node.name) (by rw [initBody_handlers, c2]; simp [hcb])
    have hfun : 0 < g.inLen ∧ notifyName (o.nameFor g.node) = notifyName g.node.name := by
      rw [hheader] at hq
      simp only [List.mem_append, List.mem_cons, List.not_mem_nil, or_false, List.mem_map] at hq
      rcases hq with ((rfl | rfl | rfl) | ⟨x, hx, rfl⟩ | ⟨x, hx, rfl⟩) | hq
      · exact absurd (show (0 : Nat) = 4 from congrArg (fun x => x.2.length) e2) (by decide)
      · exact absurd (show (0 : Nat) = 4 from congrArg (fun x => x.2.length) e2) (by decide)
      · exact absurd (show (0 : Nat) = 4 from congrArg (fun x => x.2.length) e2) (by decide)
      · exfalso
        obtain ⟨p, _, _, hx⟩ := (protos_mem k1).2 x hx
        obtain ⟨t, _, e⟩ := readProto_eq hx
        rw [e] at e2
        exact absurd (show (1 : Nat) = 4 from congrArg (fun x => x.2.length) e2) (by decide)
      · exfalso
        obtain ⟨p, _, _, hx⟩ := (protos_mem k2).2 x hx
        simp only [writeProto, bind_ok_iff, Except.ok.injEq] at hx
        obtain ⟨_, _, _, _, e⟩ := hx
        rw [← e] at e2
        exact absurd (show (1 : Nat) = 4 from congrArg (fun x => x.2.length) e2) (by decide)
      · by_cases hl : g.inLen > 0
        · simp only [hl, if_true, List.mem_singleton] at hq
          subst hq
          exact ⟨hl, e1⟩
        · simp [hl] at hq
    refine ⟨?_, hfun.1, ?_, ?_⟩
    · exact List.append_cancel_right hfun.2
    · rw [hcbp] at o2
      exact hperm.nodup_iff.mp o2
    · intro p hp x hx hm
      refine o3 x hm x ?_ rfl
      rw [hcbp, hperm.mem_iff, List.mem_filterMap]
      exact ⟨p.name, List.mem_map.mpr ⟨p, hp, rfl⟩, hx⟩
  · rintro ⟨h1, h2, h3⟩
    exact C88_fit_partial n g hg o f hf h1 h2 h3

/-- C88 is violated for every node with two require ports, or two provide ports, of one name: the source defines a
function twice. -/
theorem C88_same_name_violated (n : Node) (g : Generated) (hg : generate n = .ok g) (o : GenOptions) (f : GenFiles)
    (hf : genFiles none o g = .ok f)
    (h : ¬ (g.node.requires.map Port.name).Nodup ∨ ¬ (g.node.provides.map Port.name).Nodup) : ¬ f.Fit := by
  intro hfit
  have := (C88_exactly n g hg o f hf).mp hfit
  exact h.elim (fun h => h this.1) (fun h => h this.2.1)

/-- C88 is violated whenever code with callbacks is given another name than the node: the handler that is installed is
not declared. -/
theorem C88_renamed_violated (n : Node) (g : Generated) (hg : generate n = .ok g) (o : GenOptions) (cb : Str → Option Str)
    (hcb : o.callbacks = some cb) (name : Str) (hn : o.name = some name) (hne : name ≠ g.node.name) (f : GenFiles)
    (hf : genFiles none o g = .ok f) : ¬ f.Fit := by
  intro hfit
  have := (((C88_exactly n g hg o f hf).mp hfit).2.2 cb hcb).own
  simp only [GenOptions.nameFor, hn, Option.getD_some] at this
  exact hne this

/-- C88 is violated whenever callbacks are given for a node that has no bytes to receive: a handler is installed that
does not exist. -/
theorem C88_no_bytes_violated (n : Node) (g : Generated) (hg : generate n = .ok g) (o : GenOptions) (cb : Str → Option Str)
    (hcb : o.callbacks = some cb) (hl : g.inLen = 0) (f : GenFiles) (hf : genFiles none o g = .ok f) : ¬ f.Fit := by
  intro hfit
  have := (((C88_exactly n g hg o f hf).mp hfit).2.2 cb hcb).bytes
  omega

/-- C88 is violated for every generator used before, for a node with bytes to receive, if it is used again for a node
that has none: the source defines the function of the earlier node, which its header does not declare. -/
theorem C88_again_violated (old : Str) (o : GenOptions) (g : Generated) (hl : g.inLen = 0) (f : GenFiles)
    (hf : genFiles (some old) o g = .ok f) : ¬ f.Fit := by
  intro hfit
  obtain ⟨rs, ps, cbs, c, rd, wd, k1, k2, k3, k4, k5, k6, k7, k8, k9, k10, k11⟩ := genFiles_parts hf
  obtain ⟨c1, c2⟩ := callbackCode_eq k4
  have hd := congrArg List.length hfit.defined
  have hlen : ∀ (fn : Port → Py CProto) (ports : List Port) (l : List (Str × CProto)), protos fn ports = .ok l →
      l.length = ports.length := by
    intro fn ports l h
    have := congrArg List.length (protos_names h)
    simpa using this
  have hlen2 : ∀ (op : COp) (l : List (Str × CProto)) (code : Port → Py (CFunc × Nat)) (ports : List Port) (r : List CDef),
      portDefs op l code ports = .ok r → r.length = ports.length := by
    intro op l code ports
    induction ports with
    | nil => intro r h; simp only [portDefs, Except.ok.injEq] at h; subst h; rfl
    | cons p ports ih =>
      intro r h
      simp only [portDefs, bind_ok_iff, Except.ok.injEq] at h
      obtain ⟨_, _, _, _, r', h', rfl⟩ := h
      simp [ih r' h']
  rw [k8, k10, c1] at hd
  simp [GenHeader.protos, mkHeader, notifyAfter, hl, notifyDefs, hlen _ _ _ k1, hlen _ _ _ k2, hlen2 _ _ _ _ _ k5,
    hlen2 _ _ _ _ _ k6] at hd

/-- The hypotheses hold of the examples: two ports of one name, another name, and a generator used before. -/
example : (match generate geTwice, generate gfNode with
    | .ok g, .ok g' => gfCheck (genFiles none {} g) (fun _ => decide (¬ (g.node.provides.map Port.name).Nodup)) &&
        gfCheck (genFiles none { name := some ['M'], callbacks := some gfCb } g') (fun _ => decide (['M'] ≠ g'.node.name)) &&
        gfCheck (genFiles (some (notifyName ['M'])) {} g) (fun _ => decide (g.inLen = 0)) &&
        gfCheck (genFiles none { callbacks := some gfCb } g) (fun _ => decide (g.inLen = 0))
    | _, _ => false) = true := by decide +kernel

end Apx
