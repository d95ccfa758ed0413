import Verif.Props.ComText
import Verif.Props.Interop
import Verif.Spec.CReceive

/-! C107: the callbacks of a program get the values that have been received. -/

namespace Apx

/-! ### Types without text -/

mutual
theorem typed_shape (sfx : Str) : ∀ (e : Elem) (c : CVal), e.NoText → e.Typed sfx c → e.Shape sfx c
  | .prim tc mn mx none, c, _, h => by
    simp only [Elem.Typed] at h
    simp only [Elem.Shape]
    exact h
  | .prim tc mn mx (some n), c, hn, h => by
    simp only [Elem.Typed] at h
    simp only [Elem.NoText] at hn
    simp only [Elem.Shape]
    rcases h with h | h
    · exact .inl h
    · exact absurd h.1 hn
  | .record fs none, c, hn, h => by
    cases c with
    | struct cs =>
      simp only [Elem.Typed] at h
      simp only [Elem.NoText] at hn
      simp only [Elem.Shape]
      exact typed_shapes sfx fs cs hn h
    | _ => simp [Elem.Typed] at h
  | .record fs (some n), c, _, h => by simp [Elem.Typed] at h
  | .refType n t, c, hn, h => by
    simp only [Elem.Typed] at h
    simp only [Elem.NoText] at hn
    simp only [Elem.Shape]
    exact typed_shape sfx t c hn h
  | .refId i, c, _, h => by simp [Elem.Typed] at h
  | .refName i, c, _, h => by simp [Elem.Typed] at h
theorem typed_shapes (sfx : Str) : ∀ (fs : Fields) (cs : CFields), fs.NoText → fs.Typed sfx cs → fs.Shape sfx cs
  | .nil, .nil, _, _ => by simp [Fields.Shape]
  | .nil, .cons _ _ _, _, h => by simp [Fields.Typed] at h
  | .cons (some k) e r, .cons k' c cs, hn, h => by
    simp only [Fields.Typed] at h
    simp only [Fields.NoText] at hn
    simp only [Fields.Shape]
    exact ⟨h.1, typed_shape sfx e c hn.1 h.2.1, typed_shapes sfx r cs hn.2 h.2.2⟩
  | .cons (some k) e r, .nil, _, h => by simp [Fields.Typed] at h
  | .cons none e r, _, _, h => by simp [Fields.Typed] at h
end

/-! ### The functions of the file -/

/-- A definition of the source file, called. -/
theorem source_call {n : Node} {g : Generated} (hg : generate n = .ok g) {o : GenOptions} {f : GenFiles}
    (hf : genFiles none o g = .ok f) (hn : GenNames none o g) (hfit : f.Fit) {u : List CItem}
    (hu : u.filterMap CItem.function = f.source.defs.map fun d => (d.proto, d.body.lines)) (d : CDef) (hd : d ∈ f.source.defs)
    (op : COp) (b : CFunc) (hb : d.body = .code op b) (w : NodeWorld) (arg : CVal) :
    nodeTextCall op.buffer u d.proto.name w arg = (b.call w.buf arg).map fun m => (⟨m.buf, w.notes ++ m.notes⟩, m.arg) := by
  have hnd : ((f.source.defs.map fun d => (d.proto, d.body.lines)).map fun x => x.1.name).Nodup := by
    have := hfit.once
    unfold GenFiles.declared at this
    rw [List.map_append, List.nodup_append] at this
    rw [← hfit.defined, List.map_map] at this
    rw [List.map_map]
    exact this.1
  unfold nodeTextCall
  rw [hu, find_named (fun x : CProto × List Str => x.1.name) _ (d.proto, d.body.lines) hnd (List.mem_map.2 ⟨d, hd, rfl⟩), Option.bind_some]
  have := (C104_file_partial n g hg none o f hf hn.name.1.2 hn.ports d hd op b hb).2.1
  simp only [hb, CBody.lines, this, Option.bind_some]

/-- The read function of a port is a function of the file, and a call of it. -/
theorem source_read {n : Node} {g : Generated} (hg : generate n = .ok g) {o : GenOptions} {f : GenFiles}
    (hf : genFiles none o g = .ok f) (hn : GenNames none o g) (hfit : f.Fit) (hr : (g.node.requires.map Port.name).Nodup)
    {u : List CItem} (hu : u.filterMap CItem.function = f.source.defs.map fun d => (d.proto, d.body.lines)) (p : Port)
    (hp : p ∈ g.node.requires) (b : CFunc × Nat) (hb : readFunc g o.suffix p = .ok b) (buf : Bytes) (arg : CVal) (m : CMach)
    (h : b.1.call buf arg = some m) :
    ((u.filterMap CItem.function).any fun x => x.1.name = "ApxNode_Read_".toList ++ o.nameFor g.node ++ ('_' :: p.name)) = true ∧
    nodeTextCall "m_inPortdata".toList u ("ApxNode_Read_".toList ++ o.nameFor g.node ++ ('_' :: p.name)) ⟨buf, []⟩ arg =
      some (⟨m.buf, m.notes⟩, m.arg) := by
  obtain ⟨rs, ps, cbs, cc, rd, wd, k1, k2, -, -, k5, k6, -, -, -, k10, -⟩ := genFiles_parts hf
  obtain ⟨k, b', b1, b2, b3⟩ := portDefs_each k5 p hp
  rw [b2] at hb
  cases hb
  obtain ⟨k', c1, c2⟩ := (protos_mem k1).1 p hp
  have hk := protoNamed_unique (by rw [protos_names k1]; exact hr) c2
  simp only at hk
  rw [b1] at hk
  cases hk
  have hname : k.name = "ApxNode_Read_".toList ++ o.nameFor g.node ++ ('_' :: p.name) := by
    simp only [readProto, bind_ok_iff, Except.ok.injEq] at c1
    obtain ⟨_, _, rfl⟩ := c1
    rfl
  have hd : (⟨k, .code .unpack b.1⟩ : CDef) ∈ f.source.defs := by rw [k10]; simp [b3]
  have := source_call hg hf hn hfit hu ⟨k, .code .unpack b.1⟩ hd .unpack b.1 rfl ⟨buf, []⟩ arg
  rw [h, hname] at this
  refine ⟨?_, this⟩
  rw [hu, List.any_eq_true]
  exact ⟨_, List.mem_map.2 ⟨_, hd, rfl⟩, by simp [hname]⟩

/-- A callback is no function of the file. -/
theorem callback_outside {o : GenOptions} {g : Generated} {f : GenFiles} {cb : Str → Option Str} (hfit : f.Fit)
    (hcb : CallbacksApart o g f cb) {u : List CItem}
    (hu : u.filterMap CItem.function = f.source.defs.map fun d => (d.proto, d.body.lines)) {p : Port}
    (hp : p ∈ g.node.requires) {x : Str} (hx : cb p.name = some x) :
    ((u.filterMap CItem.function).any fun y => y.1.name = x) = false := by
  rw [hu, List.any_eq_false]
  intro y hy
  obtain ⟨d, hd, rfl⟩ := List.mem_map.1 hy
  have := hcb.other p hp x hx
  rw [← hfit.defined, List.map_map] at this
  intro h
  exact this (List.mem_map.2 ⟨d, hd, by simpa using h⟩)

/-- What is passed by its value is no array. -/
theorem byAddress_array {s : Signal} (h : s.byAddress = false) : s.array = false := by
  unfold Signal.byAddress at h
  unfold Signal.array
  cases hr : s.elem.resolveDataElement with
  | error e => rfl
  | ok d =>
    rw [hr] at h
    cases d <;> simp_all

/-- The two calls for a signal. -/
theorem run_signal {u : List CItem} {buf : Bytes} {views : Nat → Str → CVal} {name : Str} {s : Signal} {fn : Str} {k : Nat}
    {data : Str → CVal} {w : NodeWorld} {y : CVal}
    (h1 : ((u.filterMap CItem.function).any fun x => x.1.name = "ApxNode_Read_".toList ++ name ++ ('_' :: s.name)) = true)
    (h2 : nodeTextCall "m_inPortdata".toList u ("ApxNode_Read_".toList ++ name ++ ('_' :: s.name)) ⟨buf, []⟩ (.ptr (data s.name)) =
      some (w, .ptr y))
    (h3 : ((u.filterMap CItem.function).any fun x => x.1.name = fn) = false) (cs : List CDataCall) :
    runDataCalls u buf views k data (signalCalls name s fn ++ cs) =
      (runDataCalls u buf views (k + 2) (views (k + 2)) cs).map fun l => (fn, if s.byAddress then .ptr y else y) :: l := by
  unfold signalCalls
  rw [List.cons_append, List.cons_append, List.nil_append, runDataCalls]
  simp only [CDataCall.operand, if_true, Option.bind_some, h1, h2]
  rw [runDataCalls]
  cases hb : s.byAddress with
  | true => simp only [CDataCall.operand, if_true, Option.bind_some, h3, Bool.false_eq_true, if_false]
  | false =>
    have ha := byAddress_array hb
    simp only [CDataCall.operand, ha, Bool.false_eq_true, if_false, if_true, Option.bind_some, h3]

/-- The calls for several signals. -/
theorem run_signals {u : List CItem} {buf : Bytes} {views : Nat → Str → CVal} {name : Str} {cb : Str → Option Str}
    {value : Str → CVal} : ∀ (ss : List Signal) (k : Nat),
    (∀ s ∈ ss, ∀ fn, cb s.name = some fn →
      ((u.filterMap CItem.function).any fun x => x.1.name = "ApxNode_Read_".toList ++ name ++ ('_' :: s.name)) = true ∧
      (∀ k, ∃ w, nodeTextCall "m_inPortdata".toList u ("ApxNode_Read_".toList ++ name ++ ('_' :: s.name)) ⟨buf, []⟩
        (.ptr (views k s.name)) = some (w, .ptr (value s.name))) ∧
      ((u.filterMap CItem.function).any fun x => x.1.name = fn) = false) →
    runDataCalls u buf views k (views k) (ss.flatMap fun s => (cb s.name).elim [] (signalCalls name s)) =
      some (ss.filterMap fun s => (cb s.name).map fun fn => (fn, if s.byAddress then .ptr (value s.name) else value s.name))
  | [], k, _ => rfl
  | s :: ss, k, h => by
    have ih := fun k => run_signals (value := value) ss k fun t ht => h t (List.mem_cons_of_mem _ ht)
    rw [List.flatMap_cons, List.filterMap_cons]
    cases hc : cb s.name with
    | none => exact ih k
    | some fn =>
      obtain ⟨h1, h2, h3⟩ := h s (by simp) fn hc
      obtain ⟨w, h2⟩ := h2 k
      show runDataCalls u buf views k (views k) (signalCalls name s fn ++ _) = _
      rw [run_signal h1 h2 h3, ih]
      rfl

/-! ### C107 -/

/-- C107: a new generator has written the files of a node, for callbacks of which each has its own name, and the program
is told that `len` bytes from `off` on have been received. Then, read by the rules of C and run, the text of the source
file makes exactly these calls of other parts of the program: for each port with a callback that starts in these bytes, in
the order of the ports, the callback is called once, and its argument is the object that represents the value whose bytes
have been received for this port. What the union contains before the reads does not matter, as long as the objects in it
have their types; but where there is text, it must contain the zero byte behind it. -/
theorem C107_values_partial (n : Node) (g : Generated) (hg : generate n = .ok g) (o : GenOptions) (f : GenFiles)
    (hf : genFiles none o g = .ok f) (hn : GenNames none o g) (cb : Str → Option Str) (ho : o.callbacks = some cb)
    (hid : ∀ p ∈ g.node.requires, (cb p.name).isSome → CIdent p.name)
    (hcb : ∃ s ∈ g.require, (cb s.name).isSome) (hpos : ∀ s ∈ g.require, 0 < s.packLen)
    (hm : (g.require.map fun s => macroName s.name).Nodup) (hr : (g.node.requires.map Port.name).Nodup)
    (hp : (g.node.provides.map Port.name).Nodup) (hap : CallbacksApart o g f cb) :
    ∃ u lines d, readSource f.source.text = some u ∧ .func (notifyProto (notifyName (o.nameFor g.node))) lines ∈ u ∧
      readSwitch lines = some d ∧ ∀ off len,
        ((∃ s ∈ g.require, s.offset = off) ∨ (∀ s ∈ g.require, (cb s.name).isSome → off ≤ s.offset)) →
        ∀ (buf : Bytes) (views : Nat → Str → CVal) (value : Str → CVal), buf.length = g.inLen →
          (∀ s ∈ g.require, off ≤ s.offset → s.offset < off + len → (cb s.name).isSome → ∃ t : Elem,
            s.Contains o.suffix buf t (value s.name) ∧ t.CSupported ∧ (o.suffix = [] ∨ t.NoNested) ∧
            ∀ k, (t.NoText ∧ t.Typed o.suffix (views k s.name)) ∨ t.Shape o.suffix (views k s.name)) →
          d.run u buf views off len = some ((g.require.filter fun s => off ≤ s.offset ∧ s.offset < off + len).filterMap fun s =>
            (cb s.name).map fun fn => (fn, if s.byAddress then .ptr (value s.name) else value s.name)) := by
  obtain ⟨u, lines, d, h1, h2, h3, h4⟩ := C105_callbacks_partial n g hg o f hf hn cb ho hid hcb hpos hm
  refine ⟨u, lines, d, h1, h2, h3, ?_⟩
  intro off len hoff buf views value hbuf hv
  have hfit := C88_fit_partial n g hg o f hf hr hp (fun cb' h => by rw [ho] at h; cases h; exact hap)
  obtain ⟨u', hu', hu, -⟩ := C105_file_partial n g hg none o f hf hn
  rw [h1] at hu'
  cases hu'
  unfold CSwitch.run
  rw [h4 off len hoff, Option.bind_some]
  apply run_signals
  intro s hs fn hfn
  rw [List.mem_filter] at hs
  obtain ⟨hs, hrange⟩ := hs
  simp only [decide_eq_true_eq] at hrange
  obtain ⟨p, hpm, hpn, hpe⟩ := (generate_signals hg).1 s hs
  obtain ⟨t, ⟨ht, v, hv1, hv2⟩, hsup, hsfx, hview⟩ := hv s hs hrange.1 hrange.2 (by rw [hfn]; rfl)
  rw [hpe] at ht hv2
  obtain ⟨s', a1, a2, -, -, a3⟩ := C67_node_read_partial n g hg hr p hpm t ht hsup o.suffix hsfx
  have hss : s' = s := by
    have e := find_named (fun s : Signal => macroName s.name) g.require
    have e1 := e s' hm a1
    have e2 := e s hm hs
    have : macroName s'.name = macroName s.name := by rw [a2, hpn]
    rw [this] at e1
    exact Option.some.inj (e1.symm.trans e2)
  subst hss
  obtain ⟨b, b1, b2⟩ := a3 hap.bytes
  have hc : ∀ k, ∃ m, b.call buf (.ptr (views k s'.name)) = some m ∧ m.buf = buf ∧ m.arg = .ptr (value s'.name) := by
    intro k
    refine b2 v _ _ buf hv1 ?_ hbuf hv2
    rcases hview k with h | h
    · exact typed_shape _ _ _ h.1 h.2
    · exact h
  refine ⟨?_, ?_, ?_⟩
  · obtain ⟨m, m1, -⟩ := hc 0
    have := source_read hg hf hn hfit hr hu p hpm _ b1 buf _ m m1
    rw [← hpn] at this
    exact this.1
  · intro k
    obtain ⟨m, m1, -, m3⟩ := hc k
    have := source_read hg hf hn hfit hr hu p hpm _ b1 buf _ m m1
    rw [← hpn, m3] at this
    exact ⟨_, this.2⟩
  · exact callback_outside hfit hap hu hpm (by rw [← hpn]; exact hfn)

/-! ### Text -/

theorem copyOut_bytes (m : CMach) (v : CPath) (loc : CLoc) (n a : Nat) (bs : Bytes) (c : CVal) (ha : m.addr loc = some a)
    (hn : bs.length = n) (hpos : 0 < n) (hv : m.arg.update 0 (assignChars (bs.take (n - 1))) v = some c)
    (hb : Holds m.buf a bs) :
    (CSimple.copyOut v loc ((n : Int) - 1)).run 0 m =
      some { m with arg := c, bare := if m.locked then m.bare else m.bare + (n - 1) } := by
  have hk : asIndex ((n : Int) - 1) = some (n - 1) := by
    unfold asIndex; rw [if_pos (by omega)]; congr 1; omega
  have hlen : (bs.take (n - 1)).length = n - 1 := by rw [List.length_take]; omega
  have hr := holds_read m a _ (holds_take hb (n - 1))
  rw [hlen] at hr
  simp only [CSimple.run, hk, ha, hr, Option.bind_eq_bind, Option.bind_some, CMach.assign, hv, Option.map_some]

/-- The read function of a port with text copies all bytes but the last. -/
theorem read_text (sfx : Str) (types : List NamedType) (e e1 : Elem) (h1 : e.resolveType types = .ok e1) (mn mx : Option Int) (n : Nat)
    (h2 : e1.resolveDataElement = .ok (.prim .str mn mx (some n))) (hpos : 0 < n) (off : Nat) (direct : Bool) :
    ∃ f, genFunc types sfx .unpack true true off direct e = .ok (f, n) ∧
      ∀ (bs buf j : Bytes) (z : UInt8), bs.length = n → Holds buf off bs → j.length + 1 = n →
        ∃ m, f.call buf (.ptr (.chars (j ++ [z]))) = some m ∧ m.arg = .ptr (.chars (bs.take (n - 1) ++ [z])) := by
  refine ⟨_, genFunc_of h1 h2 (genElem_str sfx .unpack ⟨false, none⟩ off _ mn mx n), ?_⟩
  intro bs buf j z hbs hb hj
  obtain ⟨m, m1, -, m3, -⟩ := call_unpack none false off n direct ((emitString .unpack false [] n off).map .simple) buf
    (.ptr (.chars (j ++ [z]))) (.ptr (.chars (bs.take (n - 1) ++ [z]))) (by have := hb.1; omega) none
    (if decide (n > 1) then 0 else 0 + (n - 1)) (bareOk_cases (BareOk.ite _ _ (n - 1) n (Nat.sub_le _ _))) (by
      rw [runTops_simple]
      have hlen : (bs.take (n - 1)).length = n - 1 := by rw [List.length_take]; omega
      have e1 := copyOut_bytes ⟨buf, none, .ptr (.chars (j ++ [z])), decide (n > 1), 0, []⟩ [] (.abs off) n off bs
        (.ptr (.chars (bs.take (n - 1) ++ [z]))) (addr_abs _ off) hbs hpos (by
          simp only [CVal.update, assignChars]
          rw [if_pos (by rw [hlen]; simp; omega), hlen, List.drop_append_of_le_length (by omega), List.drop_of_length_le (by omega),
            List.nil_append]) hb
      simp [emitString, runSimples, e1])
  exact ⟨m, m1, m3⟩

theorem signal_alone : ∀ (l : List Signal), l.Pairwise (fun s t => s.offset + s.packLen ≤ t.offset) → (∀ s ∈ l, 0 < s.packLen) →
    ∀ s ∈ l, l.filter (fun t => decide (s.offset ≤ t.offset ∧ t.offset < s.offset + s.packLen)) = [s]
  | [], _, _, s, hs => by cases hs
  | t :: l, hp, hpos, s, hs => by
    rw [List.pairwise_cons] at hp
    have ht := hpos t (by simp)
    rcases List.mem_cons.1 hs with rfl | hs
    · rw [List.filter_cons, if_pos (by simp only [decide_eq_true_eq]; omega), List.filter_eq_nil_iff.2]
      intro x hx
      have := hp.1 x hx
      simp only [decide_eq_true_eq]
      omega
    · have := hp.1 s hs
      rw [List.filter_cons, if_neg (by simp only [decide_eq_true_eq]; omega)]
      exact signal_alone l hp.2 (fun x hx => hpos x (List.mem_cons_of_mem _ hx)) s hs

/-- A received signal, and the function that reads it. -/
theorem signal_readFunc {n : Node} {g : Generated} (hg : generate n = .ok g) (hr : (g.node.requires.map Port.name).Nodup)
    (sfx : Str) (s : Signal) (hs : s ∈ g.require) :
    ∃ p ∈ g.node.requires, s.name = p.name ∧ s.elem.resolveType g.node.named = .ok s.elem ∧ s.elem.packLen = .ok s.packLen ∧
      s.offset + s.packLen ≤ g.inLen ∧ g.require.Pairwise (fun s t => s.offset + s.packLen ≤ t.offset) ∧
      (0 < g.inLen → readFunc g sfx p = genFunc g.node.named sfx .unpack true true s.offset false s.elem) := by
  unfold generate at hg
  simp only [bind_ok_iff] at hg
  obtain ⟨n', h1, rs, h2, ps, h3, o, h4, i, h5, h6⟩ := hg
  cases h6
  simp only at hr hs ⊢
  obtain ⟨e1, e2⟩ := genSignals_each _ _ _ _ _ h2
  obtain ⟨p, hp, hpn, hpe⟩ := genSignals_port _ _ _ _ _ h2 s hs
  obtain ⟨s', a1, a2, a3, a4, a5, a6, a7⟩ := e2 p hp
  have hnd : (rs.map Signal.name).Nodup := by rw [e1]; exact hr
  have hss : s' = s := by
    have c1 := signalNamed_nodup rs hnd s' a1
    have c2 := signalNamed_nodup rs hnd s hs
    rw [a2, ← hpn] at c1
    exact Option.some.inj (c1.symm.trans c2)
  subst hss
  refine ⟨p, hp, hpn, ?_, by rw [← a5]; exact a4, by omega, (genSignals_apart _ _ _ _ _ h2).2, ?_⟩
  · unfold resolveDsg at a3
    rw [bind_ok_iff] at a3
    obtain ⟨x, b1, b2⟩ := a3
    rw [bind_ok_iff] at b2
    obtain ⟨_, _, b3⟩ := b2
    rw [← a5, b1]
    rw [← a5] at b3
    exact b3
  · intro hpos
    have hlook : signalNamed rs p.name = some s' := by
      rw [← a2]
      exact signalNamed_nodup rs hnd s' a1
    unfold readFunc
    simp only [hlook]
    have : decide (0 < totalLen rs) = true := by simp [hpos]
    rw [this]

/-- C107 fails for text: nothing initializes the union, and the read function of a port with text does not store the last
byte. Whatever bytes have been received for such a port, its callback gets an array that ends in the byte `z` which the
union happened to contain; unless this is zero, the array does not represent any text. -/
theorem C107_text_violated (n : Node) (g : Generated) (hg : generate n = .ok g) (o : GenOptions) (f : GenFiles)
    (hf : genFiles none o g = .ok f) (hn : GenNames none o g) (cb : Str → Option Str) (ho : o.callbacks = some cb)
    (hid : ∀ p ∈ g.node.requires, (cb p.name).isSome → CIdent p.name) (hpos : ∀ s ∈ g.require, 0 < s.packLen)
    (hm : (g.require.map fun s => macroName s.name).Nodup) (hr : (g.node.requires.map Port.name).Nodup)
    (hp : (g.node.provides.map Port.name).Nodup) (hap : CallbacksApart o g f cb)
    (s : Signal) (hs : s ∈ g.require) (fn : Str) (hfn : cb s.name = some fn) (mn mx : Option Int) (len : Nat)
    (ht : s.elem.resolveDataElement = .ok (.prim .str mn mx (some len))) :
    ∃ u lines d, readSource f.source.text = some u ∧ .func (notifyProto (notifyName (o.nameFor g.node))) lines ∈ u ∧
      readSwitch lines = some d ∧ ∀ (buf j : Bytes) (z : UInt8) (views : Nat → Str → CVal), buf.length = g.inLen →
        j.length + 1 = len → views 0 s.name = .chars (j ++ [z]) →
        d.run u buf views s.offset s.packLen = some [(fn, .ptr (.chars ((buf.drop s.offset).take (len - 1) ++ [z])))] ∧
        (z ≠ 0 → ∀ sfx v, ¬ (Elem.prim .str mn mx (some len)).Repr sfx v (.chars ((buf.drop s.offset).take (len - 1) ++ [z]))) := by
  obtain ⟨u, lines, d, h1, h2, h3, h4⟩ := C105_callbacks_partial n g hg o f hf hn cb ho hid ⟨s, hs, by rw [hfn]; rfl⟩ hpos hm
  refine ⟨u, lines, d, h1, h2, h3, ?_⟩
  intro buf j z views hbuf hj hview
  have hfit := C88_fit_partial n g hg o f hf hr hp (fun cb' h => by rw [ho] at h; cases h; exact hap)
  obtain ⟨u', hu', hu, -⟩ := C105_file_partial n g hg none o f hf hn
  rw [h1] at hu'
  cases hu'
  obtain ⟨p, hpm, hpn, hres, hlen, hfits, hpair, hrd⟩ := signal_readFunc hg hr o.suffix s hs
  have hl : s.packLen = len := by
    rw [packLen_leaves s.elem [(1, len)] (by rw [resolveLoop_leaves _ _ _ ht]; rfl)] at hlen
    have := Except.ok.inj hlen
    simp [totalSize] at this
    exact this.symm
  have hlpos : 0 < len := by omega
  obtain ⟨b, b1, b2⟩ := read_text o.suffix g.node.named s.elem s.elem hres mn mx len ht hlpos s.offset false
  have hbs : ((buf.drop s.offset).take len).length = len := by simp; omega
  obtain ⟨m, m1, m2⟩ := b2 ((buf.drop s.offset).take len) buf j z hbs ⟨by rw [hbs]; omega, by rw [hbs]⟩ hj
  have htt : ((buf.drop s.offset).take len).take (len - 1) = (buf.drop s.offset).take (len - 1) := by
    rw [List.take_take, Nat.min_eq_left (by omega)]
  rw [htt] at m2
  refine ⟨?_, ?_⟩
  · unfold CSwitch.run
    rw [h4 s.offset s.packLen (.inl ⟨s, hs, rfl⟩), Option.bind_some, signal_alone _ hpair hpos s hs]
    have hsr := source_read hg hf hn hfit hr hu p hpm (b, len) ((hrd hap.bytes).trans b1) buf _ m m1
    rw [← hpn, m2, ← hview] at hsr
    have := run_signal (views := views) (k := 0) (data := views 0) (fn := fn) hsr.1 hsr.2
      (callback_outside hfit hap hu hpm (by rw [← hpn]; exact hfn)) []
    have hb : s.byAddress = true := by
      unfold Signal.byAddress
      rw [ht]
      rfl
    rw [hb, List.append_nil] at this
    show runDataCalls u buf views 0 (views 0) (((cb s.name).elim [] (signalCalls (o.nameFor g.node) s)) ++ []) = _
    rw [hfn, List.append_nil]
    exact this
  · intro hz sfx v hrep
    simp only [Elem.Repr] at hrep
    rcases hrep with ⟨t, l, h, -⟩ | ⟨x, -, hx, -, h⟩
    · simp [TypeCode.integer] at h
    · have h := CVal.chars.inj h
      have hlast := textLayout_last len x hx
      rw [hlast] at h
      have := List.append_inj_right' h rfl
      simp at this
      exact hz this

/-! ### From a Python client -/

section
open Manager
variable {H : Type}

/-- C107, from Python to the callback: a Python client has, after any history, last written `v` to a provide port; the
server has opened its file and kept a copy of it. When the bytes of this port have been received where the generated code
has a require port of the same type with a callback, and the program is told of them, it calls exactly this callback, once,
with an object that represents `v`. The condition for text is that of `C107_values_partial`. -/
theorem C107_from_python_partial (n nP : Node) (g : Generated) (hg : generate n = .ok g) (o : GenOptions) (f : GenFiles)
    (hf : genFiles none o g = .ok f) (hn : GenNames none o g) (cb : Str → Option Str) (ho : o.callbacks = some cb)
    (hid : ∀ p ∈ g.node.requires, (cb p.name).isSome → CIdent p.name) (hpos : ∀ s ∈ g.require, 0 < s.packLen)
    (hm : (g.require.map fun s => macroName s.name).Nodup) (hr : (g.node.requires.map Port.name).Nodup)
    (hp : (g.node.provides.map Port.name).Nodup) (hap : CallbacksApart o g f cb)
    (s : Signal) (hs : s ∈ g.require) (fn : Str) (hfn : cb s.name = some fn) (t : Elem) (ht : s.elem.resolveDataElement = .ok t)
    (hsup : t.CSupported) (P0 P : Endpoint H) (hP0 : Endpoint.ofNode nP = .ok P0) (asP : List (Act H))
    (hP : P = P0.history asP) (hopen : P0.Opened asP) (i : Nat) (hi : nP.PortType .provide i t) (offP : Nat)
    (hoffP : nP.PortStart .provide i offP) (hlens : t.LensOk) (hnames : t.NamesOk) (hnest : t.NoNested) (v : PyVal)
    (hw : P0.LastWrite asP i v) (copy : Bytes) (hcopy : copy.length = (fileBytes P.node.outFile).length) (c : CVal)
    (hrep : t.Repr o.suffix v c) :
    ∃ u lines d, readSource f.source.text = some u ∧ .func (notifyProto (notifyName (o.nameFor g.node))) lines ∈ u ∧
      readSwitch lines = some d ∧ ∀ (buf : Bytes) (views : Nat → Str → CVal), buf.length = g.inLen →
        (buf.drop s.offset).take s.packLen = serverCopy copy P offP s.packLen →
        (∀ k, (t.NoText ∧ t.Typed o.suffix (views k s.name)) ∨ t.Shape o.suffix (views k s.name)) →
        d.run u buf views s.offset s.packLen = some [(fn, if s.byAddress then .ptr c else c)] := by
  obtain ⟨u, lines, d, h1, h2, h3, h4⟩ := C107_values_partial n g hg o f hf hn cb ho hid ⟨s, hs, by rw [hfn]; rfl⟩ hpos hm hr hp hap
  refine ⟨u, lines, d, h1, h2, h3, ?_⟩
  intro buf views hbuf hbytes hview
  obtain ⟨p, hpm, hpn, hres, hlen, hfits, hpair, -⟩ := signal_readFunc hg hr o.suffix s hs
  have hlen' : t.packLen = .ok s.packLen := by
    rw [← resolve_packLen ht hsup (.inr hnest : o.suffix = [] ∨ _)]
    exact hlen
  subst hP
  obtain ⟨data, hlay, hb⟩ := lastWrite_data hP0 hw hi hlens hnames (noNested_noEmpty t hnest)
  rw [serverCopy_port hP0 hopen hi hlen' (hpos s hs) hoffP copy hcopy] at hb
  cases hb
  have halone := signal_alone _ hpair hpos s hs
  have := h4 s.offset s.packLen (.inl ⟨s, hs, rfl⟩) buf views (fun _ => c) hbuf (by
    intro x hx hx1 hx2 _
    have : x ∈ [s] := by
      rw [← halone, List.mem_filter]
      exact ⟨hx, by simp only [decide_eq_true_eq]; exact ⟨hx1, hx2⟩⟩
    rw [List.mem_singleton] at this
    subst this
    exact ⟨t, ⟨ht, v, hrep, by rw [hbytes, resolveLoop_layout _ _ _ ht]; exact hlay⟩, hsup, .inr hnest, hview⟩)
  rw [this, halone, List.filterMap_cons, hfn]
  rfl

end

/-! ### Examples -/

/-- The hypotheses for a node, with a condition on what is generated. -/
def crCheck (n : Node) (o : GenOptions) (cb : Str → Option Str) (x : Generated → Bool) : Bool :=
  match generate n with
  | .ok g => gfCheck (genFiles none o g) fun f => genNamesCheck o g && x g &&
      decide ((∀ p ∈ g.node.requires, (cb p.name).isSome → CIdent p.name) ∧
        (∀ s ∈ g.require, 0 < s.packLen) ∧ (g.require.map fun s => macroName s.name).Nodup ∧
        (g.node.requires.map Port.name).Nodup ∧ (g.node.provides.map Port.name).Nodup ∧ o.nameFor g.node = g.node.name ∧ 0 < g.inLen ∧
        ((g.node.requires.map Port.name).filterMap cb).Nodup ∧
        ∀ p ∈ g.node.requires, ∀ x ∈ (cb p.name).toList, x ∉ f.header.protos.map CProto.name)
  | .error _ => false

theorem crCheck_ok {n : Node} {o : GenOptions} {cb : Str → Option Str} {x : Generated → Bool} (h : crCheck n o cb x = true) :
    ∃ g f, generate n = .ok g ∧ genFiles none o g = .ok f ∧ GenNames none o g ∧ x g = true ∧
      (∀ p ∈ g.node.requires, (cb p.name).isSome → CIdent p.name) ∧ (∀ s ∈ g.require, 0 < s.packLen) ∧
      (g.require.map fun s => macroName s.name).Nodup ∧ (g.node.requires.map Port.name).Nodup ∧
      (g.node.provides.map Port.name).Nodup ∧ CallbacksApart o g f cb := by
  unfold crCheck at h
  split at h
  · rename_i g hg
    obtain ⟨f, hf, h⟩ := gfCheck_ok h
    simp only [Bool.and_eq_true, decide_eq_true_eq] at h
    obtain ⟨⟨h1, h2⟩, h3, h4, h5, h6, h7, h8, h9, h10, h11⟩ := h
    exact ⟨g, f, hg, hf, genNamesCheck_ok h1, h2, h3, h4, h5, h6, h7, h8, h9, h10, fun p hp y hy => h11 p hp y (by rw [hy]; simp)⟩
  · cases h

/-- The data received by the node of the example of C105. -/
def crBuf : Bytes := [5, 0, 6, 1, 7, 8, 9, 1]

/-- The objects for them. -/
def crValue (s : Str) : CVal :=
  if s = ['Q'] then .ints [5, 262]
  else .struct (.cons "x_RE".toList (.int 7) (.cons "y_RE".toList (.int 2312) .nil))

/-- What the union may contain. -/
def crJunk (s : Str) : CVal :=
  if s = ['Q'] then .ints [-1, 70000]
  else .struct (.cons "x_RE".toList (.int 99) (.cons "y_RE".toList (.int 98) .nil))

/-- What the program calls when it is told of received data. -/
def crCalls (views : Nat → Str → CVal) (off len : Nat) : Option (List (Str × CVal)) :=
  guUnit.bind fun u => ((u.filterMap CItem.function).getLast?.bind fun x => readSwitch x.2).bind fun d => d.run u crBuf views off len

-- all the data, then only that of the second port
example : crCalls (fun _ => crJunk) 0 8 = some [("onQ".toList, .ptr (crValue ['Q'])), ("onR".toList, .ptr (crValue ['R']))] ∧
    crCalls (fun _ => crJunk) 4 3 = some [("onR".toList, .ptr (crValue ['R']))] := by
  constructor <;> decide +kernel

/-- The types and bytes of the two ports with callbacks. -/
def crPorts (g : Generated) : Bool :=
  decide (g.inLen = 8 ∧ (∃ s ∈ g.require, s.name = ['Q']) ∧
    ∀ s ∈ g.require, (s.name = ['Q'] ∧ s.offset = 0 ∧ s.elem.resolveDataElement = .ok (.prim .u16 none none (some 2)) ∧
        s.elem.layout (.list [.int 5, .int 262]) = some ((crBuf.drop s.offset).take s.packLen)) ∨
      (s.name = ['R'] ∧ s.offset = 4 ∧ s.elem.resolveDataElement =
          .ok (.record (.cons (some ['x']) (.prim .u8 none none none) (.cons (some ['y']) (.prim .u16 none none none) .nil)) none) ∧
        s.elem.layout (.dict [(['x'], .int 7), (['y'], .int 2312)]) = some ((crBuf.drop s.offset).take s.packLen)) ∨
      s.name = ['U'])

/-- The hypotheses of `C107_values_partial` can be met. -/
example : ∃ g f u lines d, generate gfNode = .ok g ∧ genFiles none guOptions g = .ok f ∧ readSource f.source.text = some u ∧
    .func (notifyProto (notifyName (guOptions.nameFor g.node))) lines ∈ u ∧ readSwitch lines = some d ∧
    d.run u crBuf (fun _ => crJunk) 0 8 = some ((g.require.filter fun s => 0 ≤ s.offset ∧ s.offset < 0 + 8).filterMap fun s =>
      (gfCb s.name).map fun fn => (fn, if s.byAddress then .ptr (crValue s.name) else crValue s.name)) := by
  obtain ⟨g, f, hg, hf, hn, hx, h1, h2, h3, h4, h5, h6⟩ := crCheck_ok (n := gfNode) (o := guOptions) (cb := gfCb) (x := crPorts)
    (by decide +kernel)
  simp only [crPorts, decide_eq_true_eq] at hx
  obtain ⟨hlen, ⟨s, hs, hsn⟩, hx⟩ := hx
  obtain ⟨u, lines, d, a1, a2, a3, a4⟩ := C107_values_partial gfNode g hg guOptions f hf hn gfCb rfl h1
    ⟨s, hs, by rw [hsn]; decide⟩ h2 h3 h4 h5 h6
  refine ⟨g, f, u, lines, d, hg, hf, a1, a2, a3, a4 0 8 (.inr fun _ _ _ => Nat.zero_le _) crBuf _ crValue (by rw [hlen]; rfl) ?_⟩
  intro t ht _ _ hc
  rcases hx t ht with ⟨e1, -, e2, e3⟩ | ⟨e1, -, e2, e3⟩ | e1
  · refine ⟨_, ⟨e2, _, ?_, e3⟩, ?_, .inr ?_, fun k => .inl ⟨?_, ?_⟩⟩
    · rw [e1]
      exact .inl ⟨.u16, [5, 262], rfl, by decide, rfl, rfl, rfl⟩
    · exact ⟨.inl rfl, by decide⟩
    · trivial
    · show TypeCode.u16 ≠ .str
      decide
    · rw [e1]
      exact .inl ⟨rfl, [-1, 70000], rfl, rfl⟩
  · refine ⟨_, ⟨e2, _, ?_, e3⟩, ?_, .inr ?_, fun k => .inl ⟨?_, ?_⟩⟩
    · rw [e1]
      exact ⟨rfl, ⟨_, rfl, .u8, 7, rfl, by decide, rfl, rfl⟩, rfl, ⟨_, rfl, .u16, 2312, rfl, by decide, rfl, rfl⟩, trivial⟩
    · exact ⟨by decide, rfl, rfl, trivial⟩
    · simp [Elem.NoNested, Fields.AllFlat, Elem.IsFlat]
    · simp [Elem.NoText, Fields.NoText]
    · rw [e1]
      exact ⟨rfl, ⟨rfl, 99, rfl⟩, rfl, ⟨rfl, 98, rfl⟩, trivial⟩
  · rw [e1] at hc
    exact absurd hc (by decide)

/-- A callback for the port `B`. -/
def crCb (s : Str) : Option Str := if s = ['B'] then some "onB".toList else none

/-- What a Python client has written reaches a callback of a C program. -/
example : ∃ (g : Generated) (f : GenFiles) (P0 : Endpoint Unit) (u : List CItem) (d : CSwitch), generate ioR = .ok g ∧
    genFiles none { callbacks := some crCb } g = .ok f ∧ Endpoint.ofNode fwP = .ok P0 ∧ readSource f.source.text = some u ∧
    ∃ s ∈ g.require, s.name = ['B'] ∧ ∀ (buf : Bytes) (views : Nat → Str → CVal), buf.length = g.inLen →
      (buf.drop s.offset).take s.packLen = serverCopy [9, 9, 9, 9] (P0.history fwHistP) 1 s.packLen →
      (∀ k, fwDe.Typed [] (views k ['B'])) → d.run u buf views s.offset s.packLen = some [("onB".toList, .ptr ioObj)] := by
  obtain ⟨g, f, hg, hf, hn, hx, h1, h2, h3, h4, h5, h6⟩ := crCheck_ok (n := ioR) (o := { callbacks := some crCb }) (cb := crCb)
    (x := fun g => decide (∃ s ∈ g.require, s.name = ['B'] ∧ s.elem.resolveDataElement = .ok fwDe ∧ s.byAddress = true)) (by decide +kernel)
  obtain ⟨s, hs, hsn, hse, hsb⟩ := of_decide_eq_true hx
  obtain ⟨P0, hP0, hcP⟩ := fwP_checked
  obtain ⟨hopen, hw, hcopy⟩ := fwP_history P0 hcP
  obtain ⟨u, lines, d, a1, -, -, a4⟩ := C107_from_python_partial ioR fwP g hg { callbacks := some crCb } f hf hn crCb rfl h1 h2 h3
    h4 h5 h6 s hs "onB".toList (by rw [hsn]; rfl) fwDe hse ioSupported.1 P0 _ hP0 fwHistP rfl hopen 1
    (fwPort _ _ _ _ (by decide +kernel)) 1 ⟨[1], by decide +kernel, rfl⟩
    (by simp [fwDe, Elem.LensOk, Fields.LensOk]) (by simp [fwDe, Elem.NamesOk, Fields.NamesOk])
    (by simp [fwDe, Elem.NoNested, Fields.AllFlat, Elem.IsFlat]) (fwVal 3 (-4)) hw
    [9, 9, 9, 9] (by rw [hcopy]; rfl) ioObj ioSupported.2
  refine ⟨g, f, P0, u, d, hg, hf, hP0, a1, s, hs, hsn, ?_⟩
  intro buf views hb hbytes hv
  have := a4 buf views hb hbytes fun k => .inl ⟨by simp [fwDe, Elem.NoText, Fields.NoText], by rw [hsn]; exact hv k⟩
  rw [this, hsb]
  rfl

/-- A node that requires a text of up to three bytes. -/
def crText : Node := (Node.new ['N']).run [.addPort .require ['B'] "a[4]".toList (some "=\"\"".toList)]

/-- The hypotheses of `C107_text_violated` can be met. -/
example : ∃ g f, generate crText = .ok g ∧ genFiles none { callbacks := some crCb } g = .ok f ∧
    ∃ (u : List CItem) (d : CSwitch), readSource f.source.text = some u ∧ d.run u [72, 105, 0, 0] (fun _ _ => .chars [1, 2, 3, 4]) 0 4 =
      some [("onB".toList, .ptr (.chars [72, 105, 0, 4]))] := by
  obtain ⟨g, f, hg, hf, hn, hx, h1, h2, h3, h4, h5, h6⟩ := crCheck_ok (n := crText) (o := { callbacks := some crCb }) (cb := crCb)
    (x := fun g => decide (g.inLen = 4 ∧ ∃ s ∈ g.require, s.name = ['B'] ∧ s.elem.resolveDataElement = .ok (.prim .str none none (some 4)) ∧
      s.offset = 0 ∧ s.packLen = 4)) (by decide +kernel)
  obtain ⟨hi, s, hs, hsn, hse, hso, hsl⟩ := of_decide_eq_true hx
  obtain ⟨u, lines, d, a1, -, -, a4⟩ := C107_text_violated crText g hg { callbacks := some crCb } f hf hn crCb rfl h1 h2 h3
    h4 h5 h6 s hs "onB".toList (by rw [hsn]; rfl) none none 4 hse
  refine ⟨g, f, hg, hf, u, d, a1, ?_⟩
  have := (a4 [72, 105, 0, 0] [1, 2, 3] 4 (fun _ _ => .chars [1, 2, 3, 4]) (by rw [hi]; rfl) rfl rfl).1
  rw [hso, hsl] at this
  exact this

end Apx
