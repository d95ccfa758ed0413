import Verif.Props.RoundTrip
import Verif.Proofs.Grammar

/-! C47: names and attributes that no definition text can give. -/

namespace Apx

theorem stripCommentGo_hash (b : Bool) (s : Str) : '#' ∉ stripCommentGo b s := by
  induction s generalizing b with
  | nil => cases b <;> simp [stripCommentGo]
  | cons c s ih =>
    cases b
    · simp only [stripCommentGo]
      split
      · exact ih true
      · rename_i h
        simp only [List.mem_cons, not_or]
        exact ⟨fun e => h e.symm, ih false⟩
    · simp only [stripCommentGo]
      split
      · rename_i h
        subst h
        simp only [List.mem_cons, not_or]
        exact ⟨by decide, ih false⟩
      · exact ih true

theorem stripCommentGo_mem (b : Bool) (s : Str) (c : Char) (h : c ∈ stripCommentGo b s) : c ∈ s := by
  induction s generalizing b with
  | nil => cases b <;> simp [stripCommentGo] at h
  | cons d s ih =>
    cases b
    · simp only [stripCommentGo] at h
      split at h
      · exact List.mem_cons_of_mem _ (ih true h)
      · rcases List.mem_cons.mp h with rfl | h
        · simp
        · exact List.mem_cons_of_mem _ (ih false h)
    · simp only [stripCommentGo] at h
      split at h
      · rcases List.mem_cons.mp h with rfl | h
        · simp
        · exact List.mem_cons_of_mem _ (ih false h)
      · exact List.mem_cons_of_mem _ (ih true h)

theorem lineName_ok {p : Str} (hp : '#' ∉ p ∧ '\n' ∉ p) : NameOk (lineName (parseStr p).1) := by
  cases h : parseStr p with
  | mk name rest =>
    cases name with
    | none => exact ⟨by simp [lineName], by simp [lineName], by simp [lineName]⟩
    | some a =>
      obtain ⟨rfl, hq⟩ := (matchPair_quotes '"' p a rest).mp h
      simp only [List.mem_cons, List.mem_append, not_or] at hp
      exact ⟨hq, hp.1.2.1, hp.2.2.1⟩

/-- The name in a line has none of the characters that would end it. -/
theorem splitLine_name (s : Str) (hs : '\n' ∉ s) : ∀ k nm,
    (splitLine s = .short k nm ∨ ∃ d a, splitLine s = .full k nm d a) → NameOk (lineName nm) := by
  intro k nm h
  unfold splitLine at h
  simp only at h
  split at h
  · rcases h with h | ⟨_, _, h⟩ <;> cases h
  split at h
  · rcases h with h | ⟨_, _, h⟩ <;> cases h
  have hp : ∀ c ∈ (rstripP isTrail (stripComment s)).dropWhile isLineType, c ∈ stripComment s := by
    intro c hc
    have h1 := (List.dropWhile_sublist isLineType).subset hc
    unfold rstripP at h1
    exact List.mem_reverse.mp ((List.dropWhile_sublist isTrail).subset (List.mem_reverse.mp h1))
  generalize (rstripP isTrail (stripComment s)).dropWhile isLineType = p at h hp
  have hok := lineName_ok (p := p) ⟨fun hc => stripCommentGo_hash _ _ (hp _ hc), fun hc => hs (stripCommentGo_mem _ _ _ (hp _ hc))⟩
  unfold splitRest at h
  cases hps : parseStr p with
  | mk name rest =>
    rw [hps] at h hok
    simp only at h hok
    split at h
    · split at h
      all_goals
        rcases h with h | ⟨_, _, h⟩
        · cases h
        · simp only [Line.full.injEq] at h; rw [← h.2.1]; exact hok
    · rcases h with h | ⟨_, _, h⟩
      · simp only [Line.short.injEq] at h; rw [← h.2]; exact hok
      · cases h

/-- The attribute in a line is not cut. -/
theorem splitLine_attr (s : Str) (hs : '\n' ∉ s) (k d a : Str) (nm : Option Str) (h : splitLine s = .full k nm d (some a)) :
    AttrOk a := by
  unfold splitLine at h
  simp only at h
  split at h
  · cases h
  split at h
  · cases h
  obtain ⟨pre, hpre⟩ : ∃ pre, pre ++ (rstripP isTrail (stripComment s)).dropWhile isLineType = rstripP isTrail (stripComment s) :=
    ⟨_, List.takeWhile_append_dropWhile⟩
  generalize (rstripP isTrail (stripComment s)).dropWhile isLineType = p at h hpre
  have hsuf : ∃ pre', pre' ++ a = p := by
    unfold splitRest at h
    cases hps : parseStr p with
    | mk name rest =>
      rw [hps] at h
      simp only at h
      have hrest : ∃ pre, pre ++ rest = p := by
        cases name with
        | some b =>
          obtain ⟨rfl, -⟩ := (matchPair_quotes '"' p b rest).mp hps
          exact ⟨'"' :: (b ++ ['"']), by simp⟩
        | none =>
          unfold parseStr matchPair at hps
          split at hps
          · cases hps; exact ⟨[], rfl⟩
          · split at hps
            · split at hps
              · cases hps
              · cases hps; exact ⟨_, List.append_nil _⟩
            · cases hps; exact ⟨[], rfl⟩
      obtain ⟨pre1, rfl⟩ := hrest
      split at h
      · split at h
        · rename_i c attr he
          simp only [Line.full.injEq, Option.some.injEq] at h
          obtain ⟨-, -, -, rfl⟩ := h
          refine ⟨pre1 ++ (rest.takeWhile (· != ':') ++ [c]), ?_⟩
          rw [List.append_assoc, List.append_assoc, List.singleton_append, ← he, List.takeWhile_append_dropWhile]
        · cases h
      · cases h
  obtain ⟨pre', rfl⟩ := hsuf
  rw [← List.append_assoc] at hpre
  generalize pre ++ pre' = w at hpre
  have hsub : ∀ c ∈ a, c ∈ stripComment s := by
    intro c hc
    have h1 : c ∈ rstripP isTrail (stripComment s) := by rw [← hpre]; exact List.mem_append_right _ hc
    unfold rstripP at h1
    exact List.mem_reverse.mp ((List.dropWhile_sublist isTrail).subset (List.mem_reverse.mp h1))
  have hlast : ∀ c, a.getLast? = some c → isTrail c = false := by
    intro c hc
    have h1 : (rstripP isTrail (stripComment s)).getLast? = some c := by
      rw [← hpre, List.getLast?_append, hc]; rfl
    unfold rstripP at h1
    rw [List.getLast?_reverse] at h1
    have := List.head?_dropWhile_not isTrail (stripComment s).reverse
    rw [h1] at this
    exact this
  refine ⟨fun hc => stripCommentGo_hash _ _ (hsub _ hc), fun hc => hs (stripCommentGo_mem _ _ _ (hsub _ hc)), ?_, ?_⟩
  · intro hc; have := hlast _ hc; revert this; decide
  · intro hc; have := hlast _ hc; revert this; decide

/-- All names and attributes of the node can be written. -/
def Node.Sayable (n : Node) : Prop :=
  NameOk n.name ∧ (∀ t ∈ n.types, NameOk t.name ∧ ∀ a, t.attr = some a → AttrOk a.str) ∧
    ∀ side, ∀ p ∈ n.ports side, NameOk p.name ∧ ∀ a, p.attr = some a → AttrOk a.str

theorem resolvePort_name {types : List NamedType} {p q : Port} (h : resolvePort types p = .ok q) :
    q.name = p.name ∧ q.attr = p.attr := by
  unfold resolvePort at h
  split at h
  · rw [bind_ok_iff] at h
    obtain ⟨e, -, h⟩ := h
    cases h; exact ⟨rfl, rfl⟩
  · cases h; exact ⟨rfl, rfl⟩

theorem optArg_sayable {α : Type} {f : Str → Py α} {str : α → Str} (hf : ∀ s a, f s = .ok a → str a = s) {o : Option Str}
    {r : Option α} (h : optArg f o = .ok r) (ho : ∀ s, o = some s → AttrOk s) : ∀ a, r = some a → AttrOk (str a) := by
  cases o with
  | none => cases h; intro a ha; cases ha
  | some s =>
    simp only [optArg, bind_ok_iff, Except.ok.injEq] at h
    obtain ⟨y, h1, rfl⟩ := h
    intro a ha
    cases ha
    rw [hf s _ h1]
    exact ho s rfl

/-- What a parser has read so far. -/
def Parser.Sayable (st : Parser) : Prop := ∀ n, st.node = some n → n.Sayable

theorem typeLine_names {st : Parser} {l : Line} (hst : st.Sayable) (hl : ∀ a, l.args = .ok a → NameOk a.1 ∧ ∀ s, a.2.2 = some s → AttrOk s) :
    (st.typeLine l).1.Sayable := by
  unfold Parser.typeLine
  split
  · rename_i n t h
    simp only [bind_ok_iff] at h
    obtain ⟨⟨name, dsg, attr⟩, h1, t0, h2, h3⟩ := h
    have hn := hl _ h1
    simp only [mkType, bind_ok_iff, Except.ok.injEq] at h2
    obtain ⟨e, -, a, ha, rfl⟩ := h2
    split at h3
    · cases h3
    rename_i n0 hn0
    intro m hm
    simp only [Option.some.injEq] at hm
    subst hm
    obtain ⟨g1, g2, g3⟩ := hst n0 hn0
    rcases addType_cases _ _ _ _ h3 with ⟨rfl, -⟩ | ⟨-, e, -, -, rfl, rfl⟩
    · exact ⟨g1, g2, g3⟩
    · refine ⟨g1, ?_, fun side p hp => g3 side p (by cases side <;> exact hp)⟩
      intro t ht
      simp only [List.mem_append, List.mem_cons, List.not_mem_nil, or_false] at ht
      rcases ht with ht | rfl
      · exact g2 t ht
      · exact ⟨hn.1, optArg_sayable typeAttribute_str ha hn.2⟩
  · exact hst

theorem portLine_names {st : Parser} {side : Side} {l : Line} (hst : st.Sayable) (hl : ∀ a, l.args = .ok a → NameOk a.1 ∧ ∀ s, a.2.2 = some s → AttrOk s) :
    (st.portLine side l).1.Sayable := by
  unfold Parser.portLine
  split
  · rename_i n t h
    simp only [bind_ok_iff] at h
    obtain ⟨⟨name, dsg, attr⟩, h1, t0, h2, h3⟩ := h
    have hn := hl _ h1
    simp only [mkPort, bind_ok_iff, Except.ok.injEq] at h2
    obtain ⟨e, -, a, ha, rfl⟩ := h2
    split at h3
    · cases h3
    rename_i n0 hn0
    intro m hm
    simp only [Option.some.injEq] at hm
    subst hm
    obtain ⟨g1, g2, g3⟩ := hst n0 hn0
    obtain ⟨h4, rfl⟩ := addPort_cases _ _ _ _ _ h3
    have h5 := resolvePort_name h4
    have hnew : ∀ p ∈ n0.ports side ++ [t], NameOk p.name ∧ ∀ a, p.attr = some a → AttrOk a.str := by
      intro p hp
      simp only [List.mem_append, List.mem_cons, List.not_mem_nil, or_false] at hp
      rcases hp with hp | rfl
      · exact g3 side p hp
      · rw [h5.1, h5.2]; exact ⟨hn.1, optArg_sayable portAttribute_str ha hn.2⟩
    cases side
    · refine ⟨g1, g2, fun s p hp => ?_⟩
      cases s
      · exact hnew p hp
      · exact g3 .provide p hp
    · refine ⟨g1, g2, fun s p hp => ?_⟩
      cases s
      · exact g3 .require p hp
      · exact hnew p hp
  · exact hst

theorem processLine_names {st : Parser} (hst : st.Sayable) {s : Str} (hs : '\n' ∉ s) : (st.processLine s).1.Sayable := by
  have key := splitLine_name s hs
  have hl : ∀ a, (splitLine s).args = .ok a → NameOk a.1 ∧ ∀ x, a.2.2 = some x → AttrOk x := by
    intro a ha
    cases hsl : splitLine s with
    | full k nm d at' =>
      rw [hsl] at ha
      simp only [Line.args, Except.ok.injEq] at ha
      subst ha
      refine ⟨key k nm (.inr ⟨_, _, hsl⟩), ?_⟩
      rintro x rfl
      exact splitLine_attr s hs k d x nm hsl
    | short k nm => rw [hsl] at ha; cases ha
    | other p => rw [hsl] at ha; cases ha
    | blank => rw [hsl] at ha; cases ha
  unfold Parser.processLine Parser.processParts
  split
  · exact hst
  cases hcs : st.cs
  all_goals simp only
  · split
    · rename_i hk
      intro n hn
      simp only [Option.some.injEq] at hn
      subst hn
      refine ⟨?_, (by intro t ht; cases ht), (by intro side p hp; cases side <;> cases hp)⟩
      show NameOk (splitLine s).nodeName
      cases hsl : splitLine s with
      | full k nm d at' => exact key k nm (.inr ⟨_, _, hsl⟩)
      | short k nm => exact key k nm (.inl hsl)
      | other p => rw [hsl] at hk; cases hk
      | blank => rw [hsl] at hk; cases hk
    · exact hst
  all_goals
    repeat' split
    all_goals first
      | exact typeLine_names hst hl
      | exact portLine_names hst hl
      | exact hst

theorem processLines_names (ls : List Str) (hls : ∀ l ∈ ls, '\n' ∉ l) : ∀ {st : Parser}, st.Sayable →
    (st.processLines ls).1.Sayable := by
  induction ls with
  | nil => intro st hst; exact hst
  | cons l ls ih =>
    intro st hst
    have h1 := processLine_names hst (hls l (by simp))
    unfold Parser.processLines
    split
    · rename_i st' h
      rw [h] at h1
      exact ih (fun l hl => hls l (by simp [hl])) h1
    · rename_i st' x h
      rw [h] at h1
      exact h1

theorem finish_names {st : Parser} (hst : st.Sayable) (x : PyErr) (n : Node) (h : (st.finish x).2 = .ok n) : n.Sayable := by
  unfold Parser.finish at h
  split at h
  · cases h
  rename_i n0 hn0
  split at h
  · rename_i n1 h1
    cases h
    obtain ⟨g1, g2, g3⟩ := hst n0 hn0
    obtain ⟨e1, -, e3, e4⟩ := resolveTypes_ok _ _ h1
    refine ⟨by rw [e1]; exact g1, by rw [e3]; exact g2, ?_⟩
    intro side p hp
    have h2 : (Except.ok p : Py Port) ∈ (n0.ports side).map (resolvePort n0.named) := by
      rw [e4 side]; exact List.mem_map.mpr ⟨p, hp, rfl⟩
    obtain ⟨q, hq, h3⟩ := List.mem_map.mp h2
    rw [(resolvePort_name h3).1, (resolvePort_name h3).2]
    exact g3 side q hq
  · cases h

/-- C47: whatever a definition text says, the names in the node that a fresh parser makes of it contain no quote, hash
sign or line feed, and the attributes no hash sign or line feed, nor a space or carriage return at the end. -/
theorem C47_loaded (text : Str) (n : Node)
    (h : (Parser.new.loads text).2 = .ok n ∨ (Parser.new.load text).2 = .ok n) : n.Sayable := by
  have h0 : Parser.Sayable ⟨none, .start⟩ := by intro n hn; cases hn
  rcases h with h | h
  · unfold Parser.loads at h
    simp only at h
    split at h
    · cases h
    have h1 : ∀ ls, (∀ l ∈ ls, l ∈ splitOn '\n' text) → (Parser.processLines ⟨none, .start⟩ ls).1.Sayable := by
      intro ls hls
      exact processLines_names ls (fun l hl => splitOn_oneLiners text l (hls l hl)) h0
    have h2 := h1 (if parseHeaderLine (rstripNewline ((splitOn '\n' text).headD [])) = none then splitOn '\n' text
      else (splitOn '\n' text).tail) (by
        intro l hl
        split at hl
        · exact hl
        · exact List.mem_of_mem_tail hl)
    split at h
    · cases h
    · rename_i st he
      have he' : Parser.processLines ⟨none, .start⟩ _ = _ := he
      rw [he'] at h2
      exact finish_names h2 _ _ h
  · unfold Parser.load at h
    simp only at h
    split at h
    · cases h
    unfold Parser.parseV12 at h
    have h2 := processLines_names ((fileLines text).tail.map rstripNewline) (by
      intro l hl
      obtain ⟨l', hl', rfl⟩ := List.mem_map.mp hl
      have h3 : l' ∈ splitOn '\n' text := by
        have := List.mem_of_mem_tail hl'
        rcases fileLines_cases text with e | e <;> rw [e]
        · exact this
        · exact List.mem_append_left _ this
      intro hc
      apply splitOn_oneLiners text l' h3
      unfold rstripNewline rstripP at hc
      exact List.mem_reverse.mp ((List.dropWhile_sublist _).subset (List.mem_reverse.mp hc))) h0
    split at h
    · cases h
    · rename_i st he
      have he' : Parser.processLines ⟨none, .start⟩ _ = _ := he
      rw [he'] at h2
      exact finish_names h2 _ _ h

/-- C47 is violated by every node with a name that contains a quote, a hash sign or a line feed, or with an attribute that
contains a hash sign or a line feed or ends with a space or carriage return, all of which `Node` accepts: nothing that
is written, by `dumps` or otherwise, is ever loaded as the same definition. -/
theorem C47_name_violated (n : Node) (hn : ¬ n.Sayable) (text : Str) (m : Node)
    (h : (Parser.new.loads text).2 = .ok m ∨ (Parser.new.load text).2 = .ok m) : ¬ m.SameDefinition n := by
  rintro ⟨h1, h2, h3⟩
  obtain ⟨g1, g2, g3⟩ := C47_loaded text m h
  apply hn
  refine ⟨h1 ▸ g1, ?_, ?_⟩
  · intro t ht
    have : t.content ∈ m.types.map TypeObj.content := by rw [h2]; exact List.mem_map.mpr ⟨t, ht, rfl⟩
    obtain ⟨u, hu, e⟩ := List.mem_map.mp this
    simp only [TypeObj.content, Prod.mk.injEq] at e
    rw [← e.1, ← e.2.2]; exact g2 u hu
  · intro side p hp
    have : p.content ∈ (m.ports side).map Port.content := by rw [h3 side]; exact List.mem_map.mpr ⟨p, hp, rfl⟩
    obtain ⟨u, hu, e⟩ := List.mem_map.mp this
    simp only [Port.content, Prod.mk.injEq] at e
    rw [← e.1, ← e.2.2]; exact g3 side u hu

/-- Such a node, and one with a text that can be loaded. -/
example : ¬ ((Node.new ['N']).run [.addPort .provide ['a', '#', 'b'] ['C'] none]).Sayable ∧
    (Parser.new.loads "APX/1.2\nN\"N\"\nP\"a\"C # b\n".toList).2.toOption.isSome := by
  refine ⟨?_, by decide +kernel⟩
  intro h
  have h1 : ((Node.new ['N']).run [.addPort .provide ['a', '#', 'b'] ['C'] none]).provides.map Port.name = [['a', '#', 'b']] := by
    decide +kernel
  have h2 : ['a', '#', 'b'] ∈ ((Node.new ['N']).run [.addPort .provide ['a', '#', 'b'] ['C'] none]).provides.map Port.name := by
    rw [h1]; simp
  obtain ⟨p, hp, e⟩ := List.mem_map.mp h2
  have := (h.2.2 .provide p hp).1.2.1
  rw [e] at this
  simp at this

end Apx
