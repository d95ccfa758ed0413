import Verif.Proofs.Tools

/-! Sequences of copies, and what the tools write (for C76-C79). -/

namespace Apx

/-! ### Sequences of copies -/

/-- A node put together from ports of the nodes `S`. -/
structure Assembled (S : Node → Prop) (n : Node) : Prop where
  inv : NodeInv n
  types : ∀ t ∈ n.types, t.shortName = none ∧ ∃ m, S m ∧ ∃ u ∈ m.types, t.content = u.content
  ports : ∀ side, ∀ c ∈ n.contents side, ∃ m, S m ∧ c ∈ m.contents side
  names : n.portNames.Nodup

theorem Compatible.src {S : Node → Prop} (h : Compatible S) {src : Node} (hs : S src) : SrcOk src :=
  ⟨⟨(h.built src hs).inv, fun t ht => (h.copy src hs t ht).1⟩, fun t ht => (h.copy src hs t ht).2.1,
    fun t ht => (h.copy src hs t ht).2.2⟩

theorem mem_contents {n : Node} {side : Side} {c : Str × Elem × Option PortAttr} :
    c ∈ n.contents side ↔ ∃ p ∈ n.ports side, p.content = c := List.mem_map

theorem mem_portNames {n : Node} {x : Str} : x ∈ n.portNames ↔ ∃ side, ∃ p ∈ n.ports side, p.name = x := by
  simp only [Node.portNames, List.mem_append, List.mem_map]
  constructor
  · rintro (h | h)
    · exact ⟨.require, h⟩
    · exact ⟨.provide, h⟩
  · rintro ⟨side, h⟩
    cases side
    · exact .inl h
    · exact .inr h

theorem Assembled.new (S : Node → Prop) (name : Str) : Assembled S (Node.new name) := by
  refine ⟨nodeInv_new name, by simp [Node.new], ?_, by simp [Node.portNames, Node.new]⟩
  intro side c hc
  cases side <;> simp [Node.contents, Node.ports, Node.new] at hc

theorem Assembled.port {S : Node → Prop} {n : Node} (h : Assembled S n) {side : Side} {q : Port} (hq : q ∈ n.ports side) :
    ∃ m, S m ∧ ∃ p ∈ m.ports side, p.content = q.content := by
  obtain ⟨m, hm, hc⟩ := h.ports side q.content (mem_contents.mpr ⟨q, hq, rfl⟩)
  exact ⟨m, hm, mem_contents.mp hc⟩

theorem assembled_step {S : Node → Prop} (hc : Compatible S) {n src : Node} (hn : Assembled S n) (hs : S src) (side : Side)
    (p : Port) (hp : p ∈ src.ports side) :
    ∃ n' q, n.addPortFrom src side p false = (n', .ok q) ∧ Assembled S n' ∧ n'.name = n.name ∧
      n'.isFinalized = n.isFinalized ∧
      ∀ s c, c ∈ n'.contents s ↔ c ∈ n.contents s ∨ (s = side ∧ c = p.content) := by
  have hsrc := hc.src hs
  have hag : AgreeC n src := by
    intro t ht
    obtain ⟨h1, m, hm, u, hu, he⟩ := hn.types t ht
    refine ⟨h1, fun v hv hnm => ?_⟩
    rw [he]
    exact hc.types m src hm hs u hu v hv ((content_name he).symm.trans hnm)
  have hpt : ∀ t ∈ src.types, t.name ∉ n.portNames := by
    intro t ht hx
    obtain ⟨s, q, hq, hqn⟩ := mem_portNames.mp hx
    obtain ⟨m, hm, q', hq', he⟩ := hn.port hq
    exact hc.apart src m hs hm t ht (mem_portNames.mpr ⟨s, q', hq', (pcontent_name he).trans hqn⟩)
  have hdup : ∀ side', ∀ q ∈ n.ports side', q.name = p.name → side' = side ∧ q.content = p.content := by
    intro side' q hq hqn
    obtain ⟨m, hm, q', hq', he⟩ := hn.port hq
    obtain ⟨h1, h2⟩ := hc.ports m src hm hs side' side q' hq' p hp ((pcontent_name he).trans hqn)
    exact ⟨h1, he.symm.trans h2⟩
  obtain ⟨n', q, h1, h2, h3, h4, h5⟩ := addPortFrom_total hsrc hag side p hp (hc.wf src hs side p hp) hpt hdup false
  have hcont : ∀ s c, c ∈ n'.contents s ↔ c ∈ n.contents s ∨ (s = side ∧ c = p.content) := by
    intro s c
    rcases h5 with ⟨h5, h6⟩ | ⟨-, q, hq, h6, h7⟩
    · rw [Node.contents, h6 s]
      constructor
      · exact .inl
      · rintro (h | ⟨rfl, rfl⟩)
        · exact h
        · exact h5
    · by_cases hss : s = side
      · subst hss
        simp [Node.contents, h6, hq]
      · have : s = side.flip := by cases s <;> cases side <;> simp_all [Side.flip]
        subst this
        simp [Node.contents, h7, hss]
  have hinv := addPortFrom_inv n src side p false hn.inv
  have hnames := step_names n (.addPortFrom src side p false) hn.inv (fun h => h) hn.names
  simp only [Node.step, h1] at hinv hnames
  refine ⟨n', q, h1, ⟨hinv, ?_, ?_, hnames⟩, h3, h4, hcont⟩
  · intro t ht
    rcases h2 t ht with ht | ⟨e1, u, hu, e2⟩
    · exact hn.types t ht
    · exact ⟨e1, src, hs, u, hu, e2⟩
  · intro s c h
    rcases (hcont s c).mp h with h | ⟨rfl, rfl⟩
    · exact hn.ports s c h
    · exact ⟨src, hs, mem_contents.mpr ⟨p, hp, rfl⟩⟩

/-- What is known after copying the ports `items` (with their directions) into `n`. -/
def Collected (S : Node → Prop) (n n' : Node) (items : Side → Port → Prop) : Prop :=
  Assembled S n' ∧ n'.name = n.name ∧ n'.isFinalized = n.isFinalized ∧
    ∀ s c, c ∈ n'.contents s ↔ c ∈ n.contents s ∨ ∃ p, items s p ∧ c = p.content

theorem Collected.refl {S : Node → Prop} {n : Node} (hn : Assembled S n) : Collected S n n fun _ _ => False :=
  ⟨hn, rfl, rfl, by simp⟩

theorem Collected.trans {S : Node → Prop} {a b c : Node} {I J : Side → Port → Prop} (h : Collected S a b I)
    (h' : Collected S b c J) : Collected S a c fun s p => I s p ∨ J s p := by
  refine ⟨h'.1, h'.2.1.trans h.2.1, h'.2.2.1.trans h.2.2.1, ?_⟩
  intro s x
  rw [h'.2.2.2 s x, h.2.2.2 s x]
  constructor
  · rintro ((h | ⟨p, hp, rfl⟩) | ⟨p, hp, rfl⟩)
    · exact .inl h
    · exact .inr ⟨p, .inl hp, rfl⟩
    · exact .inr ⟨p, .inr hp, rfl⟩
  · rintro (h | ⟨p, hp | hp, rfl⟩)
    · exact .inl (.inl h)
    · exact .inl (.inr ⟨p, hp, rfl⟩)
    · exact .inr ⟨p, hp, rfl⟩

theorem Collected.congr {S : Node → Prop} {a b : Node} {I J : Side → Port → Prop} (h : Collected S a b I)
    (he : ∀ s p, I s p ↔ J s p) : Collected S a b J := by
  refine ⟨h.1, h.2.1, h.2.2.1, fun s c => ?_⟩
  rw [h.2.2.2 s c]
  simp only [he]

theorem collected_one {S : Node → Prop} (hc : Compatible S) {n src : Node} (hn : Assembled S n) (hs : S src) (side : Side)
    (p : Port) (hp : p ∈ src.ports side) :
    ∃ n' q, n.addPortFrom src side p false = (n', .ok q) ∧ Collected S n n' fun s r => s = side ∧ r = p := by
  obtain ⟨n', q, h1, h2, h3, h4, h5⟩ := assembled_step hc hn hs side p hp
  refine ⟨n', q, h1, h2, h3, h4, fun s c => ?_⟩
  rw [h5]
  constructor
  · rintro (h | ⟨rfl, rfl⟩)
    · exact .inl h
    · exact .inr ⟨p, ⟨rfl, rfl⟩, rfl⟩
  · rintro (h | ⟨_, ⟨rfl, rfl⟩, rfl⟩)
    · exact .inl h
    · exact .inr ⟨rfl, rfl⟩

theorem extendWith_total {S : Node → Prop} (hc : Compatible S) {src : Node} (hs : S src) (side : Side) (ps : List Port)
    (hps : ∀ p ∈ ps, p ∈ src.ports side) (n : Node) (hn : Assembled S n) :
    ∃ n', n.extendWith src side ps = (n', .ok ()) ∧ Collected S n n' fun s p => s = side ∧ p ∈ ps := by
  induction ps generalizing n with
  | nil => exact ⟨n, rfl, (Collected.refl hn).congr (by simp)⟩
  | cons p ps ih =>
    obtain ⟨m, q, h1, h2⟩ := collected_one hc hn hs side p (hps p (by simp))
    obtain ⟨n', h3, h4⟩ := ih (fun r hr => hps r (by simp [hr])) m h2.1
    refine ⟨n', by simp only [Node.extendWith, h1, h3], (h2.trans h4).congr ?_⟩
    intro s r
    simp only [List.mem_cons]
    constructor
    · rintro (⟨rfl, rfl⟩ | ⟨rfl, h⟩)
      · exact ⟨rfl, .inl rfl⟩
      · exact ⟨rfl, .inr h⟩
    · rintro ⟨rfl, rfl | h⟩
      · exact .inl ⟨rfl, rfl⟩
      · exact .inr ⟨rfl, h⟩

theorem extend_total {S : Node → Prop} (hc : Compatible S) {src : Node} (hs : S src) (n : Node) (hn : Assembled S n) :
    ∃ n', n.extend src = (n', .ok ()) ∧ Collected S n n' fun s p => p ∈ src.ports s := by
  obtain ⟨m, h1, h2⟩ := extendWith_total hc hs .require src.requires (fun _ h => h) n hn
  obtain ⟨n', h3, h4⟩ := extendWith_total hc hs .provide src.provides (fun _ h => h) m h2.1
  refine ⟨n', by simp only [Node.extend, h1, h3], (h2.trans h4).congr ?_⟩
  intro s p
  cases s <;> simp [Node.ports]

theorem joinNodes_total {S : Node → Prop} (hc : Compatible S) (srcs : List Node) (hs : ∀ m ∈ srcs, S m) (n : Node)
    (hn : Assembled S n) :
    ∃ n', joinNodes n srcs = .ok n' ∧ Collected S n n' fun s p => ∃ m ∈ srcs, p ∈ m.ports s := by
  induction srcs generalizing n with
  | nil => exact ⟨n, rfl, (Collected.refl hn).congr (by simp)⟩
  | cons src srcs ih =>
    obtain ⟨m, h1, h2⟩ := extend_total hc (hs src (by simp)) n hn
    obtain ⟨n', h3, h4⟩ := ih (fun r hr => hs r (by simp [hr])) m h2.1
    refine ⟨n', by simp only [joinNodes, h1, h3], (h2.trans h4).congr ?_⟩
    simp

/-! ### Splitting -/

theorem splitTail_total {S : Node → Prop} (hc : Compatible S) {src : Node} (hs : S src) (processed : List Str) (side : Side)
    (ps : List Port) (hps : ∀ p ∈ ps, p ∈ src.ports side) (n : Node) (hn : Assembled S n) :
    ∃ n', splitTail src processed side n ps = .ok n' ∧
      Collected S n n' fun s p => s = side ∧ p ∈ ps ∧ p.name ∉ processed := by
  induction ps generalizing n with
  | nil => exact ⟨n, rfl, (Collected.refl hn).congr (by simp)⟩
  | cons p ps ih =>
    by_cases hp : p.name ∈ processed
    · obtain ⟨n', h3, h4⟩ := ih (fun r hr => hps r (by simp [hr])) n hn
      refine ⟨n', by simp only [splitTail, if_pos hp, h3], h4.congr ?_⟩
      intro s r
      simp only [List.mem_cons]
      constructor
      · rintro ⟨h1, h2, h3⟩
        exact ⟨h1, .inr h2, h3⟩
      · rintro ⟨h1, rfl | h2, h3⟩
        · exact absurd hp h3
        · exact ⟨h1, h2, h3⟩
    · obtain ⟨m, q, h1, h2⟩ := collected_one hc hn hs side p (hps p (by simp))
      obtain ⟨n', h3, h4⟩ := ih (fun r hr => hps r (by simp [hr])) m h2.1
      refine ⟨n', by simp only [splitTail, if_neg hp, h1, h3], (h2.trans h4).congr ?_⟩
      intro s r
      simp only [List.mem_cons]
      constructor
      · rintro (⟨rfl, rfl⟩ | ⟨rfl, h, h'⟩)
        · exact ⟨rfl, .inl rfl, hp⟩
        · exact ⟨rfl, .inr h, h'⟩
      · rintro ⟨rfl, rfl | h, h'⟩
        · exact .inl ⟨rfl, rfl⟩
        · exact .inr ⟨rfl, h, h'⟩

/-- With unique names, a port is found by its name. -/
theorem find_port {n : Node} (hu : n.portNames.Nodup) {side : Side} {p : Port} (hp : p ∈ n.ports side)
    (ht : p.name ∉ n.types.map TypeObj.name) : n.find p.name = some (.port side p) := by
  unfold Node.find
  have h0 : n.types.find? (fun t => t.name = p.name) = none := by
    rw [List.find?_eq_none]
    intro t h
    simp only [List.mem_map, not_exists, not_and] at ht
    simpa using ht t h
  simp only [h0]
  unfold Node.portNames at hu
  rw [List.nodup_append] at hu
  obtain ⟨h1, h2, h3⟩ := hu
  have key : ∀ l : List Port, (l.map Port.name).Nodup → p ∈ l → l.find? (fun q => q.name = p.name) = some p := by
    intro l hl hm
    cases hf : l.find? (fun q => q.name = p.name) with
    | none =>
      rw [List.find?_eq_none] at hf
      exact absurd (hf p hm) (by simp)
    | some q =>
      have hq := List.mem_of_find?_eq_some hf
      have he : q.name = p.name := by simpa using List.find?_some hf
      rw [map_nodup_inj hl hq hm he]
  cases side with
  | require => simp [key n.requires h1 hp]
  | provide =>
    have hr : n.requires.find? (fun q => q.name = p.name) = none := by
      rw [List.find?_eq_none]
      intro q hq
      have := h3 q.name (List.mem_map.mpr ⟨q, hq, rfl⟩) p.name (List.mem_map.mpr ⟨p, hp, rfl⟩)
      simpa using this
    simp [hr, key n.provides h2 hp]

theorem find_cases (n : Node) (name : Str) (ht : name ∉ n.types.map TypeObj.name) :
    (n.find name = none ∧ name ∉ n.portNames) ∨ ∃ side p, n.find name = some (.port side p) ∧ p ∈ n.ports side ∧ p.name = name := by
  unfold Node.find
  have h0 : n.types.find? (fun t => t.name = name) = none := by
    rw [List.find?_eq_none]
    intro t h
    simp only [List.mem_map, not_exists, not_and] at ht
    simpa using ht t h
  simp only [h0]
  cases h1 : n.requires.find? (fun p => p.name = name) with
  | some p => exact .inr ⟨.require, p, rfl, List.mem_of_find?_eq_some h1, by simpa using List.find?_some h1⟩
  | none =>
    cases h2 : n.provides.find? (fun p => p.name = name) with
    | some p => exact .inr ⟨.provide, p, rfl, List.mem_of_find?_eq_some h2, by simpa using List.find?_some h2⟩
    | none =>
      refine .inl ⟨rfl, ?_⟩
      rw [List.find?_eq_none] at h1 h2
      simp only [Node.portNames, List.mem_append, List.mem_map, not_or, not_exists, not_and]
      exact ⟨fun p hp => by simpa using h1 p hp, fun p hp => by simpa using h2 p hp⟩

theorem splitHead_total {S : Node → Prop} (hc : Compatible S) {src : Node} (hs : S src) (hu : src.portNames.Nodup)
    (names : List Str) (hns : ∀ x ∈ names, x ∉ src.types.map TypeObj.name) (processed : List Str) (n : Node)
    (hn : Assembled S n) :
    ∃ n' done, splitHead src n processed names = .ok (n', done) ∧
      (∀ x ∈ src.portNames, x ∈ done ↔ x ∈ processed ∨ x ∈ names) ∧
      Collected S n n' fun s p => p ∈ src.ports s ∧ p.name ∈ names ∧ p.name ∉ processed := by
  induction names generalizing n processed with
  | nil => exact ⟨n, processed, rfl, by simp, (Collected.refl hn).congr (by simp)⟩
  | cons x names ih =>
    have ih := fun processed => ih (fun y hy => hns y (by simp [hy])) processed
    rcases find_cases src x (hns x (by simp)) with ⟨h, hx⟩ | ⟨side, p, h, hp, rfl⟩
    · obtain ⟨n', done, h1, h2, h3⟩ := ih processed n hn
      refine ⟨n', done, by simp only [splitHead, h, h1], ?_, h3.congr ?_⟩
      · intro y hy
        rw [h2 y hy]
        have : y ≠ x := fun e => hx (e ▸ hy)
        simp [this]
      · intro s q
        constructor
        · rintro ⟨a, b, c⟩
          exact ⟨a, by simp [b], c⟩
        · rintro ⟨a, b, c⟩
          refine ⟨a, ?_, c⟩
          rcases List.mem_cons.mp b with b | b
          · exact absurd (mem_portNames.mpr ⟨s, q, a, b⟩) hx
          · exact b
    · by_cases hd : p.name ∈ processed
      · obtain ⟨n', done, h1, h2, h3⟩ := ih processed n hn
        refine ⟨n', done, by simp only [splitHead, h, if_pos hd, h1], ?_, h3.congr ?_⟩
        · intro y hy
          rw [h2 y hy]
          simp only [List.mem_cons]
          constructor
          · rintro (h | h)
            · exact .inl h
            · exact .inr (.inr h)
          · rintro (h | rfl | h)
            · exact .inl h
            · exact .inl hd
            · exact .inr h
        · intro s q
          constructor
          · rintro ⟨a, b, c⟩
            exact ⟨a, by simp [b], c⟩
          · rintro ⟨a, b, c⟩
            refine ⟨a, ?_, c⟩
            rcases List.mem_cons.mp b with b | b
            · exact absurd (b ▸ hd) c
            · exact b
      · obtain ⟨m, q, k1, k2⟩ := collected_one hc hn hs side p hp
        obtain ⟨n', done, h1, h2, h3⟩ := ih (p.name :: processed) m k2.1
        refine ⟨n', done, by simp only [splitHead, h, if_neg hd, k1, h1], ?_, (k2.trans h3).congr ?_⟩
        · intro y hy
          rw [h2 y hy]
          simp only [List.mem_cons]
          constructor
          · rintro ((h | h) | h)
            · exact .inr (.inl h)
            · exact .inl h
            · exact .inr (.inr h)
          · rintro (h | h | h)
            · exact .inl (.inr h)
            · exact .inl (.inl h)
            · exact .inr h
        · intro s r
          simp only [List.mem_cons, not_or]
          constructor
          · rintro (⟨rfl, rfl⟩ | ⟨a, b, c, d⟩)
            · exact ⟨hp, .inl rfl, hd⟩
            · exact ⟨a, .inr b, d⟩
          · rintro ⟨a, b, c⟩
            by_cases hr : r.name = p.name
            · have h1 := find_port hu hp (hns p.name (by simp))
              have h2 := find_port hu a (by rw [hr]; exact hns p.name (by simp))
              rw [hr, h1] at h2
              simp only [Option.some.injEq, Found.port.injEq] at h2
              exact .inl ⟨h2.1.symm, h2.2.symm⟩
            · exact .inr ⟨a, b.resolve_left hr, hr, c⟩

end Apx
