import Verif.Props.NodeData

/-! C35: the initial content of the port data, whatever the init values are. -/

namespace Apx

/-- Sizes and initial data of a list of ports: `ns` are the packed lengths of their types and `bs` what their init
values give, zeros for ports without one. -/
structure InitsOf (types : List NamedType) (ports : List NPort) (ns : List Nat) (bs : List Bytes) : Prop where
  sizes : ports.map (NPort.packLen types) = ns.map .ok
  count : bs.length = ports.length
  given : ∀ (k : Nat) (p : NPort) (b : Bytes), ports[k]? = some p → bs[k]? = some b → ∀ iv, p.init = some iv →
    ∃ de, p.type types = .ok de ∧ de.createInitData iv = .ok b
  zero : ∀ (k : Nat) (p : NPort) (n : Nat) (b : Bytes), ports[k]? = some p → ns[k]? = some n → bs[k]? = some b →
    p.init = none → b = List.replicate n 0

theorem layout_inits {d : Dir} {types : List NamedType} {ps : List NPort} {s : PortLayout} {f : Option FileData}
    (h : addPorts d types .empty ps = .ok s) (hf : createPortFile s = .ok f) :
    ∃ ns bs, InitsOf types ps ns bs ∧ bs.flatten.length = ns.sum ∧ fileBytes f = bs.flatten ∧
      ∀ (k n : Nat), ns[k]? = some n → portBytes s.ranges f k = some ((bs.flatten.drop (ns.take k).sum).take n) := by
  obtain ⟨rs, cs, bs, a1, a2, a3, a4, a5⟩ := addPorts_ok h
  obtain ⟨f1, f2, -⟩ := createPortFile_ok hf
  simp only [PortLayout.empty, List.nil_append, List.length_nil] at a1 a2 a3 a4
  have hsum : ∀ (off k : Nat) (rs : List PortRange) (stop : Nat), Consecutive off k rs stop → stop = off + (rs.map (·.len)).sum := by
    intro off k rs
    induction rs generalizing off k with
    | nil => intro stop h; simp only [Consecutive] at h; simp [h]
    | cons r rs ih =>
      rintro stop ⟨-, -, h⟩
      rw [ih _ _ _ h]
      simp
      omega
  refine ⟨rs.map (·.len), bs, ⟨?_, a5.length.2.2, ?_, ?_⟩, ?_, by rw [f1, a3], ?_⟩
  · apply List.ext_getElem?
    intro i
    rw [List.getElem?_map, List.getElem?_map, List.getElem?_map]
    cases hp : ps[i]? with
    | none =>
      have : rs[i]? = none := by
        rw [List.getElem?_eq_none_iff] at hp ⊢
        rw [a5.length.1]; exact hp
      rw [this]
      rfl
    | some p =>
      obtain ⟨r, c, b, b1, -, -, b4⟩ := a5.get hp
      obtain ⟨e, de, e1, e2, e3, -⟩ := b4.ex
      rw [b1]
      simp only [Option.map_some, NPort.packLen, e1, ok_bind, e3]
  · intro k p b hp hb iv hiv
    obtain ⟨r, c, b', b1, -, b3, b4⟩ := a5.get hp
    obtain ⟨e, de, e1, e2, e3, -, e5⟩ := b4.ex
    rw [hb] at b3
    cases b3
    rw [hiv] at e5
    exact ⟨de, by simp only [NPort.type, e1, ok_bind, e2], e5⟩
  · intro k p n b hp hn hb hiv
    obtain ⟨r, c, b', b1, -, b3, b4⟩ := a5.get hp
    obtain ⟨e, de, -, -, -, -, e5⟩ := b4.ex
    rw [hb] at b3
    cases b3
    rw [List.getElem?_map, b1] at hn
    simp only [Option.map_some, Option.some.injEq] at hn
    rw [hiv] at e5
    simp only [portInit, Except.ok.injEq] at e5
    rw [← e5, hn]
  · rw [← a3, f2, hsum _ _ _ _ a4, Nat.zero_add]
  · intro k n hn
    rw [List.getElem?_map] at hn
    cases hr : rs[k]? with
    | none => rw [hr] at hn; cases hn
    | some r =>
      rw [hr] at hn
      simp only [Option.map_some, Option.some.injEq] at hn
      have := (a4.get hr).2.1
      simp only [portBytes, a1, hr, Option.map_some, f1, a3, this, hn, Nat.zero_add, List.map_take]

/-- C35, exactly, for all init values: the node data is created only if the initial data of all ports together is as long
as all ports together, and then it is laid out one after the other, each port having the bytes at its own place. -/
theorem C35_exactly (types : List NamedType) (rq pv : List NPort) (text : Str) (nd : NodeData)
    (h : NodeData.build types rq pv text = .ok nd) :
    (∃ ns bs, InitsOf types rq ns bs ∧ bs.flatten.length = ns.sum ∧ fileBytes nd.inFile = bs.flatten ∧
      ∀ (k n : Nat), ns[k]? = some n → portBytes nd.inRanges nd.inFile k = some ((bs.flatten.drop (ns.take k).sum).take n)) ∧
    ∃ ns bs, InitsOf types pv ns bs ∧ bs.flatten.length = ns.sum ∧ fileBytes nd.outFile = bs.flatten ∧
      ∀ (k n : Nat), ns[k]? = some n → portBytes nd.outRanges nd.outFile k = some ((bs.flatten.drop (ns.take k).sum).take n) := by
  obtain ⟨i, o, df, h1, h2, h3, h4, -, h5⟩ := build_inv h
  have e1 : nd.inRanges = i.ranges := by rw [h5]
  have e2 : nd.outRanges = o.ranges := by rw [h5]
  rw [e1, e2]
  exact ⟨layout_inits h1 h2, layout_inits h3 h4⟩

/-- C35 fails whenever node data is created although an init value gives too few or too many bytes for its port, as lists
of another length than the array do. Let `k` be the first such require port and `b` its data: the port does not have
it. If `b` is too short, the data of the ports that follow is drawn in; if it is too long, its end goes to the port
that follows. -/
theorem C35_shifted_violated (types : List NamedType) (rq pv : List NPort) (text : Str) (nd : NodeData)
    (h : NodeData.build types rq pv text = .ok nd) (ns : List Nat) (bs : List Bytes) (hi : InitsOf types rq ns bs)
    (k n : Nat) (b : Bytes) (hn : ns[k]? = some n) (hb : bs[k]? = some b) (hne : b.length ≠ n)
    (hfirst : ∀ j < k, bs[j]?.map List.length = ns[j]?) :
    portBytes nd.inRanges nd.inFile k = some ((b ++ (bs.drop (k + 1)).flatten).take n) ∧
      portBytes nd.inRanges nd.inFile k ≠ some b ∧
      ∀ n', ns[k + 1]? = some n' →
        portBytes nd.inRanges nd.inFile (k + 1) = some (((b ++ (bs.drop (k + 1)).flatten).drop n).take n') := by
  obtain ⟨ns', bs', hi', hl, -, hp⟩ := (C35_exactly types rq pv text nd h).1
  have hns : ns' = ns := by
    have := hi'.sizes.symm.trans hi.sizes
    have inj : ∀ a c : List Nat, a.map (Except.ok (ε := PyErr)) = c.map .ok → a = c := by
      intro a
      induction a with
      | nil => intro c hc; cases c with
        | nil => rfl
        | cons _ _ => simp at hc
      | cons x a ih => intro c hc; cases c with
        | nil => simp at hc
        | cons y c =>
          simp only [List.map_cons, List.cons.injEq, Except.ok.injEq] at hc
          rw [hc.1, ih c hc.2]
    exact inj _ _ this
  subst hns
  have hlen : ns'.length = rq.length := by
    have := congrArg List.length hi.sizes
    simpa using this.symm
  have hbs : bs' = bs := by
    apply List.ext_getElem?
    intro j
    by_cases hj : j < rq.length
    · have hb1 : bs'[j]? = some (bs'[j]'(by rw [hi'.count]; exact hj)) := List.getElem?_eq_getElem _
      have hb2 : bs[j]? = some (bs[j]'(by rw [hi.count]; exact hj)) := List.getElem?_eq_getElem _
      have hpj : rq[j]? = some rq[j] := List.getElem?_eq_getElem _
      have hnj : ns'[j]? = some (ns'[j]'(by omega)) := List.getElem?_eq_getElem _
      rw [hb1, hb2]
      cases hiv : rq[j].init with
      | none => rw [hi'.zero j _ _ _ hpj hnj hb1 hiv, hi.zero j _ _ _ hpj hnj hb2 hiv]
      | some iv =>
        obtain ⟨de, d1, d2⟩ := hi'.given j _ _ hpj hb1 iv hiv
        obtain ⟨de', d3, d4⟩ := hi.given j _ _ hpj hb2 iv hiv
        rw [d1] at d3
        cases d3
        rw [d2] at d4
        rw [Except.ok.inj d4]
    · rw [List.getElem?_eq_none (by rw [hi'.count]; omega), List.getElem?_eq_none (by rw [hi.count]; omega)]
  subst hbs
  have hk : k < bs'.length := (List.getElem?_eq_some_iff.mp hb).1
  have hsplit : ∀ (k : Nat) (ns : List Nat) (bs : List Bytes) (n : Nat), ns[k]? = some n →
      (∀ j < k, bs[j]?.map List.length = ns[j]?) → bs.flatten.drop (ns.take k).sum = (bs.drop k).flatten := by
    intro k
    induction k with
    | zero => intro ns bs n _ _; simp
    | succ k ih =>
      intro ns bs n hn hj
      cases ns with
      | nil => simp at hn
      | cons m ns =>
        have h0 := hj 0 (by omega)
        cases bs with
        | nil => simp at h0
        | cons c bs =>
          simp only [List.getElem?_cons_zero, Option.map_some, Option.some.injEq] at h0
          have := ih ns bs n (by simpa using hn) (fun j hjk => by simpa using hj (j + 1) (by omega))
          rw [List.take_succ_cons, List.sum_cons, List.flatten_cons, ← h0, ← List.drop_drop, List.drop_left,
            this, List.drop_succ_cons]
  have hd := hsplit k ns' bs' n hn hfirst
  have hcons : bs'.drop k = b :: bs'.drop (k + 1) := by
    rw [List.drop_eq_getElem_cons hk]
    obtain ⟨_, e⟩ := List.getElem?_eq_some_iff.mp hb
    rw [e]
  rw [hcons, List.flatten_cons] at hd
  have hpk := hp k n hn
  rw [hd] at hpk
  refine ⟨hpk, ?_, ?_⟩
  · rw [hpk]
    intro hc
    simp only [Option.some.injEq] at hc
    have h1 := congrArg List.length hc
    rw [List.length_take] at h1
    have h2 : (b ++ (bs'.drop (k + 1)).flatten).length + (ns'.take k).sum = bs'.flatten.length := by
      rw [← hd, List.length_drop]
      have : (ns'.take k).sum ≤ ns'.sum := by
        conv => rhs; rw [← List.take_append_drop k ns']
        rw [List.sum_append]; omega
      omega
    have h3 : (ns'.take k).sum + n ≤ ns'.sum := by
      conv => rhs; rw [← List.take_append_drop k ns']
      obtain ⟨hk', e⟩ := List.getElem?_eq_some_iff.mp hn
      rw [List.sum_append, List.drop_eq_getElem_cons hk', List.sum_cons, e]
      omega
    omega
  · intro n' hn'
    rw [hp (k + 1) n' hn']
    have : (ns'.take (k + 1)).sum = (ns'.take k).sum + n := by
      obtain ⟨hk', e⟩ := List.getElem?_eq_some_iff.mp hn
      rw [List.take_succ_eq_append_getElem hk', List.sum_append, e]
      simp
    rw [this, ← List.drop_drop, hd]

/-- `R"a"C[2]:={1}`, `R"b"C[2]:={2,3,4}`: the node data is created, and the first port has `1, 2`. -/
example : ∃ nd, ndMis = .ok nd ∧
    InitsOf [] [⟨"a".toList, some 0, .prim .u8 none none (some 2), some (.list [.int 1])⟩,
      ⟨"b".toList, some 1, .prim .u8 none none (some 2), some (.list [.int 2, .int 3, .int 4])⟩] [2, 2] [[1], [2, 3, 4]] ∧
    portBytes nd.inRanges nd.inFile 0 = some [1, 2] ∧ portBytes nd.inRanges nd.inFile 1 = some [3, 4] := by
  have h : (ndMis.toOption.map fun nd => (portBytes nd.inRanges nd.inFile 0, portBytes nd.inRanges nd.inFile 1)) =
      some (some [1, 2], some [3, 4]) := by decide +kernel
  cases hm : ndMis with
  | error e => rw [hm] at h; cases h
  | ok nd =>
    rw [hm] at h
    simp only [Except.toOption, Option.map_some, Option.some.injEq, Prod.mk.injEq] at h
    refine ⟨nd, rfl, ⟨by decide +kernel, rfl, ?_, ?_⟩, h.1, h.2⟩
    · intro k p b hp hb iv hiv
      match k with
      | 0 =>
        simp only [List.getElem?_cons_zero, Option.some.injEq] at hp hb
        subst hp hb
        simp only [Option.some.injEq] at hiv
        subst hiv
        exact ⟨.prim .u8 none none (some 2), by decide +kernel, by decide +kernel⟩
      | 1 =>
        simp only [List.getElem?_cons_succ, List.getElem?_cons_zero, Option.some.injEq] at hp hb
        subst hp hb
        simp only [Option.some.injEq] at hiv
        subst hiv
        exact ⟨.prim .u8 none none (some 2), by decide +kernel, by decide +kernel⟩
      | k + 2 => simp at hp
    · intro k p n b hp hn hb hiv
      match k with
      | 0 =>
        simp only [List.getElem?_cons_zero, Option.some.injEq] at hp
        subst hp
        cases hiv
      | 1 =>
        simp only [List.getElem?_cons_succ, List.getElem?_cons_zero, Option.some.injEq] at hp
        subst hp
        cases hiv
      | k + 2 => simp at hp

end Apx
