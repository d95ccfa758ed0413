import Verif.Spec.Builder
import Verif.Proofs.Signature

/-! Elements made by calls: the objects agree with the calls made (C97). -/

namespace Apx

/-- The object a call makes. -/
def BCall.Object : BCall → BObj → Prop
  | .int f name mn mx len, o => o = ⟨name, .prim f.code mn mx (len.map Int.toNat)⟩ ∧ ∀ k, len = some k → 0 ≤ k
  | .string name len, o => o = ⟨name, .prim .str none none (len.map Int.toNat)⟩ ∧ ∀ k, len = some k → 0 ≤ k
  | .record name _, o => ∃ l, o = ⟨name, .record l⟩
  | .reference r name, o => o = ⟨name, .ref r⟩
  | _, _ => False

/-- The state agrees with what happened. -/
structure BInv (s : BState) (t : List BEvent) : Prop where
  varsOk : ∀ (v : Nat) (l : Nat), s.vars[v]? = some l → s.lists[l]? = some (listIn t v)
  recsOk : ∀ (h : Nat) (n : Option Str) (l : Nat), s.objs[h]? = some ⟨n, .record l⟩ → s.lists[l]? = some (childrenIn t h)
  varsInj : ∀ (v w l : Nat), s.vars[v]? = some l → s.vars[w]? = some l → v = w
  recsInj : ∀ (h : Nat) (g : Nat) (n : Option Str) (m : Option Str) (l : Nat), s.objs[h]? = some ⟨n, .record l⟩ → s.objs[g]? = some ⟨m, .record l⟩ → h = g
  disj : ∀ (v : Nat) (h : Nat) (n : Option Str) (l : Nat), s.vars[v]? = some l → s.objs[h]? = some ⟨n, .record l⟩ → False
  made : ∀ ev ∈ t, ∀ h, ev.Makes h → ∃ o, s.objs[h]? = some o ∧ ev.call.Object o
  origin : ∀ (h : Nat) (o : BObj), s.objs[h]? = some o → ∃ ev ∈ t, ev.Makes h
  kids : ∀ h c, c ∈ childrenIn t h → c < s.objs.length
  parent : ∀ h c, c ∈ childrenIn t h → ∃ n l, s.objs[h]? = some ⟨n, .record l⟩
  items : ∀ v c, c ∈ listIn t v → c < s.objs.length

theorem getElem?_snoc {α : Type} (l : List α) (x : α) (i : Nat) :
    (l ++ [x])[i]? = if i = l.length then some x else l[i]? := by
  rw [List.getElem?_append]
  split
  · rw [if_neg (by omega)]
  · split
    · subst_vars; simp
    · rename_i h1 h2
      rw [List.getElem?_eq_none (by simp; omega), List.getElem?_eq_none (by omega)]

theorem getElem?_some_lt {α : Type} {l : List α} {i : Nat} {x : α} (h : l[i]? = some x) : i < l.length := by
  rcases Nat.lt_or_ge i l.length with h' | h'
  · exact h'
  · rw [List.getElem?_eq_none h'] at h; cases h

/-- A call that raises changes nothing. -/
theorem BInv.raised {s : BState} {t : List BEvent} (hi : BInv s t) (c : BCall) (e : PyErr) :
    BInv s (⟨c, .error e⟩ :: t) := by
  have hl : ∀ v, listIn (⟨c, .error e⟩ :: t) v = listIn t v := by
    intro v; cases c <;> simp [listIn]
  have hc : ∀ v, childrenIn (⟨c, .error e⟩ :: t) v = childrenIn t v := by
    intro v; cases c <;> simp [childrenIn]
  constructor
  · intro v l h; rw [hl]; exact hi.varsOk v l h
  · intro h n l hh; rw [hc]; exact hi.recsOk h n l hh
  · exact hi.varsInj
  · exact hi.recsInj
  · exact hi.disj
  · intro ev hev h hm
    rcases List.mem_cons.1 hev with rfl | hev
    · exact absurd hm.1 (by simp)
    · exact hi.made ev hev h hm
  · intro h o ho
    obtain ⟨ev, h1, h2⟩ := hi.origin h o ho
    exact ⟨ev, List.mem_cons_of_mem _ h1, h2⟩
  · intro h c' hh; rw [hc] at hh; exact hi.kids h c' hh
  · intro h c' hh; rw [hc] at hh; exact hi.parent h c' hh
  · intro h c' hh; rw [hl] at hh; exact hi.items h c' hh

/-- A new element that is no record. -/
theorem BInv.fresh {s : BState} {t : List BEvent} (hi : BInv s t) (c : BCall) (o : BObj)
    (hl : ∀ v, listIn (⟨c, .ok (some s.objs.length)⟩ :: t) v = listIn t v)
    (hc : ∀ v, childrenIn (⟨c, .ok (some s.objs.length)⟩ :: t) v = childrenIn t v)
    (hn : ∀ items, c ≠ .list items) (ho : c.Object o) (hk : ∀ n l, o ≠ ⟨n, .record l⟩) :
    BInv ⟨s.objs ++ [o], s.lists, s.vars⟩ (⟨c, .ok (some s.objs.length)⟩ :: t) := by
  have old : ∀ (h : Nat) (n : Option Str) (l : Nat), (s.objs ++ [o])[h]? = some ⟨n, .record l⟩ →
      s.objs[h]? = some ⟨n, .record l⟩ := by
    intro h n l hh
    rw [getElem?_snoc] at hh
    split at hh
    · exact absurd (Option.some.inj hh) (hk n l)
    · exact hh
  constructor
  · intro v l h; rw [hl]; exact hi.varsOk v l h
  · intro h n l hh; rw [hc]; exact hi.recsOk h n l (old h n l hh)
  · exact hi.varsInj
  · intro h g n m l h1 h2; exact hi.recsInj h g n m l (old _ _ _ h1) (old _ _ _ h2)
  · intro v h n l h1 h2; exact hi.disj v h n l h1 (old _ _ _ h2)
  · intro ev hev h hm
    rcases List.mem_cons.1 hev with rfl | hev
    · have : h = s.objs.length := by have := hm.1; simp at this; exact this.symm
      subst this
      exact ⟨o, by simp, ho⟩
    · obtain ⟨o', h1, h2⟩ := hi.made ev hev h hm
      refine ⟨o', ?_, h2⟩
      simp only [getElem?_snoc]
      rw [if_neg (by have := getElem?_some_lt h1; omega), h1]
  · intro h o' hh
    simp only [getElem?_snoc] at hh
    split at hh
    · subst_vars
      exact ⟨_, List.mem_cons_self, rfl, hn⟩
    · obtain ⟨ev, h1, h2⟩ := hi.origin h o' hh
      exact ⟨ev, List.mem_cons_of_mem _ h1, h2⟩
  · intro h c' hh; rw [hc] at hh
    have := hi.kids h c' hh
    simp; omega
  · intro h c' hh; rw [hc] at hh
    obtain ⟨n, l, hp⟩ := hi.parent h c' hh
    refine ⟨n, l, ?_⟩
    simp only [getElem?_snoc]
    rw [if_neg (by have := getElem?_some_lt hp; omega), hp]
  · intro h c' hh; rw [hl] at hh
    have := hi.items h c' hh
    simp; omega

theorem setArrayLen_ok {len : Option Int} {n : Option Nat} (h : setArrayLen len = .ok n) :
    n = len.map Int.toNat ∧ ∀ k, len = some k → 0 ≤ k := by
  cases len with
  | none => simp only [setArrayLen, Except.ok.injEq] at h; subst h; simp
  | some k =>
    simp only [setArrayLen] at h
    split at h
    · cases h
    · simp only [Except.ok.injEq] at h
      subst h
      refine ⟨rfl, ?_⟩
      intro j hj
      cases hj
      omega

theorem BInv.prim {s : BState} {t : List BEvent} (hi : BInv s t) (c : BCall) (tc : TypeCode)
    (name : Option Str) (mn mx : Option Int) (len : Option Int)
    (hl : ∀ r v, listIn (⟨c, r⟩ :: t) v = listIn t v)
    (hc : ∀ r v, childrenIn (⟨c, r⟩ :: t) v = childrenIn t v)
    (hn : ∀ items, c ≠ .list items) 
    (ho : (∀ k, len = some k → 0 ≤ k) → c.Object ⟨name, .prim tc mn mx (len.map Int.toNat)⟩) :
    BInv (s.prim tc name mn mx len).1 (⟨c, (s.prim tc name mn mx len).2⟩ :: t) := by
  unfold BState.prim
  split
  · rename_i n hn'
    obtain ⟨rfl, hk⟩ := setArrayLen_ok hn'
    exact hi.fresh c _ (hl _) (hc _) hn (ho hk) (by simp)
  · exact hi.raised _ _

/-- A new record. -/
theorem BInv.record {s : BState} {t : List BEvent} (hi : BInv s t) (name : Option Str) (es : Option Nat) :
    BInv (s.record name es).1 (⟨.record name es, (s.record name es).2⟩ :: t) := by
  unfold BState.record
  generalize hcp : s.copied es = x
  cases x with
  | error e => exact hi.raised _ _
  | ok l =>
    have hes : l = es.elim [] (listIn t) := by
      cases es with
      | none => simp only [BState.copied, Except.ok.injEq] at hcp; simp [hcp.symm]
      | some v =>
        simp only [BState.copied] at hcp
        cases hv : s.vars[v]? with
        | none => rw [hv] at hcp; simp at hcp
        | some k =>
          rw [hv] at hcp
          simp only [Option.bind_some, hi.varsOk v k hv, Except.ok.injEq] at hcp
          exact hcp.symm
    have hb : ∀ c ∈ l, c < s.objs.length := by
      intro c hcm
      rw [hes] at hcm
      cases es with
      | none => simp at hcm
      | some v => exact hi.items v c hcm
    have hl : ∀ v, listIn (⟨.record name es, .ok (some s.objs.length)⟩ :: t) v = listIn t v := by
      intro v; simp [listIn]
    have hc : ∀ v, childrenIn (⟨.record name es, .ok (some s.objs.length)⟩ :: t) v =
        if s.objs.length = v then l else childrenIn t v := by
      intro v; simp [childrenIn, hes]
    have hvl : ∀ (v k : Nat), s.vars[v]? = some k → k < s.lists.length := by
      intro v k h; exact getElem?_some_lt (hi.varsOk v k h)
    have hrl : ∀ (h : Nat) (n : Option Str) (k : Nat), s.objs[h]? = some ⟨n, .record k⟩ → k < s.lists.length := by
      intro h n k hh; exact getElem?_some_lt (hi.recsOk h n k hh)
    have cases' : ∀ (h : Nat) (n : Option Str) (k : Nat), (s.objs ++ [(⟨name, .record s.lists.length⟩ : BObj)])[h]? = some ⟨n, .record k⟩ →
        (h = s.objs.length ∧ k = s.lists.length) ∨ (h < s.objs.length ∧ s.objs[h]? = some ⟨n, .record k⟩) := by
      intro h n k hh
      rw [getElem?_snoc] at hh
      split at hh
      · simp only [Option.some.injEq, BObj.mk.injEq, BKind.record.injEq] at hh
        exact .inl ⟨by assumption, hh.2.symm⟩
      · exact .inr ⟨getElem?_some_lt hh, hh⟩
    simp only [BState.new]
    constructor
    · intro v k h
      rw [hl]
      simp only [getElem?_snoc]
      rw [if_neg (by have := hvl v k h; omega)]
      exact hi.varsOk v k h
    · intro h n k hh
      rw [hc]
      simp only [getElem?_snoc]
      rcases cases' h n k hh with ⟨rfl, rfl⟩ | ⟨h1, h2⟩
      · simp
      · rw [if_neg (by have := hrl h n k h2; omega), if_neg (by omega)]
        exact hi.recsOk h n k h2
    · exact hi.varsInj
    · intro h g n m k h1 h2
      rcases cases' h n k h1 with ⟨rfl, rfl⟩ | ⟨h3, h4⟩ <;> rcases cases' g m _ h2 with ⟨rfl, h5⟩ | ⟨h5, h6⟩
      · rfl
      · have := hrl _ _ _ h6; omega
      · have := hrl _ _ _ h4; omega
      · exact hi.recsInj h g n m k h4 h6
    · intro v h n k h1 h2
      have hk := hvl v k h1
      rcases cases' h n k h2 with ⟨rfl, rfl⟩ | ⟨h3, h4⟩
      · omega
      · exact hi.disj v h n k h1 h4
    · intro ev hev h hm
      rcases List.mem_cons.1 hev with rfl | hev
      · have : h = s.objs.length := by have := hm.1; simp at this; exact this.symm
        subst this
        exact ⟨_, by rw [getElem?_snoc, if_pos rfl], _, rfl⟩
      · obtain ⟨o', h1, h2⟩ := hi.made ev hev h hm
        refine ⟨o', ?_, h2⟩
        simp only [getElem?_snoc]
        rw [if_neg (by have := getElem?_some_lt h1; omega), h1]
    · intro h o' hh
      simp only [getElem?_snoc] at hh
      split at hh
      · subst_vars
        exact ⟨_, List.mem_cons_self, rfl, by simp⟩
      · obtain ⟨ev, h1, h2⟩ := hi.origin h o' hh
        exact ⟨ev, List.mem_cons_of_mem _ h1, h2⟩
    · intro h c' hh; rw [hc] at hh
      simp only [List.length_append, List.length_singleton]
      split at hh
      · have := hb c' hh; omega
      · have := hi.kids h c' hh; omega
    · intro h c' hh; rw [hc] at hh
      split at hh
      · rename_i e
        exact ⟨name, s.lists.length, by rw [getElem?_snoc, if_pos e.symm]⟩
      · obtain ⟨n, l, hp⟩ := hi.parent h c' hh
        refine ⟨n, l, ?_⟩
        simp only [getElem?_snoc]
        rw [if_neg (by have := getElem?_some_lt hp; omega), hp]
    · intro h c' hh; rw [hl] at hh
      have := hi.items h c' hh
      simp; omega

theorem getElem?_modify' {α : Type} (l : List α) (f : α → α) (i j : Nat) :
    (l.modify i f)[j]? = if i = j then l[j]?.map f else l[j]? := by
  rw [List.getElem?_modify]
  split <;> simp

/-- `append` to a record. -/
theorem BInv.appended {s : BState} {t : List BEvent} (hi : BInv s t) (h c : Nat) (hc : c < s.objs.length) :
    BInv (s.append h c).1 (⟨.append h c, (s.append h c).2⟩ :: t) := by
  unfold BState.append
  split
  · exact hi.raised _ _
  · rename_i n l ho
    have hl : ∀ r v, listIn (⟨.append h c, r⟩ :: t) v = listIn t v := by
      intro r v; simp [listIn]
    have hch : ∀ v, childrenIn (⟨.append h c, .ok none⟩ :: t) v =
        if h = v then childrenIn t v ++ [c] else childrenIn t v := by
      intro v; simp [childrenIn]
    constructor
    · intro v k hv
      rw [hl]
      simp only [getElem?_modify']
      rw [if_neg (by intro e; subst e; exact hi.disj v h n l hv ho)]
      exact hi.varsOk v k hv
    · intro g m k hg
      rw [hch]
      simp only [getElem?_modify']
      have := hi.recsOk g m k hg
      split
      · rename_i e
        subst e
        have := hi.recsInj h g n m l ho hg
        subst this
        simp [hi.recsOk h m l hg]
      · rw [if_neg (by intro e; subst e; rw [ho] at hg; simp_all)]
        exact this
    · exact hi.varsInj
    · exact hi.recsInj
    · exact hi.disj
    · intro ev hev g hm
      rcases List.mem_cons.1 hev with rfl | hev
      · exact absurd hm.1 (by simp)
      · exact hi.made ev hev g hm
    · intro g o hg
      obtain ⟨ev, h1, h2⟩ := hi.origin g o hg
      exact ⟨ev, List.mem_cons_of_mem _ h1, h2⟩
    · intro g c' hg
      rw [hch] at hg
      split at hg
      · rcases List.mem_append.1 hg with hg | hg
        · exact hi.kids g c' hg
        · rw [List.mem_singleton.1 hg]; exact hc
      · exact hi.kids g c' hg
    · intro g c' hg
      rw [hch] at hg
      split at hg
      · rename_i e
        subst e
        exact ⟨n, l, ho⟩
      · exact hi.parent g c' hg
    · intro g c' hg; rw [hl] at hg; exact hi.items g c' hg
  · exact hi.raised _ _

/-- `append` to a list. -/
theorem BInv.extended {s : BState} {t : List BEvent} (hi : BInv s t) (w c l : Nat) (hc : c < s.objs.length)
    (hw : s.vars[w]? = some l) :
    BInv { s with lists := s.lists.modify l (· ++ [c]) } (⟨.extend w c, .ok none⟩ :: t) := by
  have hch : ∀ v, childrenIn (⟨.extend w c, .ok none⟩ :: t) v = childrenIn t v := by
    intro v; simp [childrenIn]
  have hl : ∀ v, listIn (⟨.extend w c, .ok none⟩ :: t) v =
      if w = v then listIn t v ++ [c] else listIn t v := by
    intro v; simp [listIn]
  constructor
  · intro v k hv
    rw [hl]
    simp only [getElem?_modify']
    split
    · rename_i e
      subst e
      have := hi.varsInj w v l hw hv
      subst this
      simp [hi.varsOk w l hw]
    · rw [if_neg (by intro e; subst e; rw [hw] at hv; simp_all)]
      exact hi.varsOk v k hv
  · intro g m k hg
    rw [hch]
    simp only [getElem?_modify']
    rw [if_neg (by intro e; subst e; exact hi.disj w g m l hw hg)]
    exact hi.recsOk g m k hg
  · exact hi.varsInj
  · exact hi.recsInj
  · exact hi.disj
  · intro ev hev g hm
    rcases List.mem_cons.1 hev with rfl | hev
    · exact absurd hm.1 (by simp)
    · exact hi.made ev hev g hm
  · intro g o hg
    obtain ⟨ev, h1, h2⟩ := hi.origin g o hg
    exact ⟨ev, List.mem_cons_of_mem _ h1, h2⟩
  · intro g c' hg; rw [hch] at hg; exact hi.kids g c' hg
  · intro g c' hg; rw [hch] at hg; exact hi.parent g c' hg
  · intro g c' hg
    rw [hl] at hg
    split at hg
    · rcases List.mem_append.1 hg with hg | hg
      · exact hi.items g c' hg
      · rw [List.mem_singleton.1 hg]; exact hc
    · exact hi.items g c' hg

/-- A new list. -/
theorem BInv.listed {s : BState} {t : List BEvent} (hi : BInv s t) (xs : List Nat)
    (hx : ∀ c ∈ xs, c < s.objs.length) :
    BInv ⟨s.objs, s.lists ++ [xs], s.vars ++ [s.lists.length]⟩ (⟨.list xs, .ok (some s.vars.length)⟩ :: t) := by
  have hch : ∀ v, childrenIn (⟨.list xs, .ok (some s.vars.length)⟩ :: t) v = childrenIn t v := by
    intro v; simp [childrenIn]
  have hl : ∀ v, listIn (⟨.list xs, .ok (some s.vars.length)⟩ :: t) v =
      if s.vars.length = v then xs else listIn t v := by
    intro v; simp [listIn]
  have hvl : ∀ (v k : Nat), s.vars[v]? = some k → k < s.lists.length := by
    intro v k h; exact getElem?_some_lt (hi.varsOk v k h)
  have hrl : ∀ (h : Nat) (n : Option Str) (k : Nat), s.objs[h]? = some ⟨n, .record k⟩ → k < s.lists.length := by
    intro h n k hh; exact getElem?_some_lt (hi.recsOk h n k hh)
  have cases' : ∀ (v k : Nat), (s.vars ++ [s.lists.length])[v]? = some k →
      (v = s.vars.length ∧ k = s.lists.length) ∨ (v < s.vars.length ∧ s.vars[v]? = some k) := by
    intro v k h
    rw [getElem?_snoc] at h
    split at h
    · exact .inl ⟨by assumption, (Option.some.inj h).symm⟩
    · exact .inr ⟨getElem?_some_lt h, h⟩
  constructor
  · intro v k h
    rw [hl]
    simp only [getElem?_snoc]
    rcases cases' v k h with ⟨rfl, rfl⟩ | ⟨h1, h2⟩
    · simp
    · rw [if_neg (by have := hvl v k h2; omega), if_neg (by omega)]
      exact hi.varsOk v k h2
  · intro h n k hh
    rw [hch]
    simp only [getElem?_snoc]
    rw [if_neg (by have := hrl h n k hh; omega)]
    exact hi.recsOk h n k hh
  · intro v w k h1 h2
    rcases cases' v k h1 with ⟨rfl, rfl⟩ | ⟨h3, h4⟩ <;> rcases cases' w _ h2 with ⟨rfl, h5⟩ | ⟨h5, h6⟩
    · rfl
    · have := hvl _ _ h6; omega
    · have := hvl _ _ h4; omega
    · exact hi.varsInj v w k h4 h6
  · exact hi.recsInj
  · intro v h n k h1 h2
    have hk := hrl h n k h2
    rcases cases' v k h1 with ⟨rfl, rfl⟩ | ⟨h3, h4⟩
    · omega
    · exact hi.disj v h n k h4 h2
  · intro ev hev h hm
    rcases List.mem_cons.1 hev with rfl | hev
    · exact absurd rfl (hm.2 xs)
    · exact hi.made ev hev h hm
  · intro h o' hh
    obtain ⟨ev, h1, h2⟩ := hi.origin h o' hh
    exact ⟨ev, List.mem_cons_of_mem _ h1, h2⟩
  · intro h c' hh; rw [hch] at hh; exact hi.kids h c' hh
  · intro h c' hh; rw [hch] at hh; exact hi.parent h c' hh
  · intro h c' hh; rw [hl] at hh
    split at hh
    · exact hx c' hh
    · exact hi.items h c' hh

theorem BInv.step {s : BState} {t : List BEvent} (hi : BInv s t) (c : BCall) :
    BInv (s.step c).1 (⟨c, (s.step c).2⟩ :: t) := by
  cases c with
  | list xs =>
    simp only [BState.step]
    split
    · rename_i h
      exact hi.listed xs (by simpa using h)
    · exact hi.raised _ _
  | extend w c =>
    simp only [BState.step]
    split
    · rename_i l o h1 h2
      exact hi.extended w c l (getElem?_some_lt h2) h1
    · exact hi.raised _ _
  | int f name mn mx len =>
    exact hi.prim _ _ _ _ _ _ (by intro r v; simp [listIn]) (by intro r v; simp [childrenIn]) (by simp) fun h => ⟨rfl, h⟩
  | string name len =>
    exact hi.prim _ _ _ _ _ _ (by intro r v; simp [listIn]) (by intro r v; simp [childrenIn]) (by simp) fun h => ⟨rfl, h⟩
  | record name es => exact hi.record name es
  | reference r name =>
    exact hi.fresh _ _ (by intro v; simp [listIn]) (by intro v; simp [childrenIn]) (by simp) rfl (by simp)
  | append h c =>
    simp only [BState.step]
    split
    · rename_i o ho
      exact hi.appended h c (getElem?_some_lt ho)
    · exact hi.raised _ _

theorem BInv.run (cs : List BCall) : ∀ {s : BState} {t : List BEvent}, BInv s t →
    BInv (s.run t cs).1 (s.run t cs).2 := by
  induction cs with
  | nil => intro s t h; exact h
  | cons c cs ih => intro s t h; exact ih (h.step c)

theorem runCalls_inv (cs : List BCall) : BInv (runCalls cs).1 (runCalls cs).2 := by
  refine BInv.run cs ?_
  constructor <;> simp [listIn, childrenIn]

theorem letter_inj (tc : TypeCode) (f : IntFactory) (h : tc.letter = f.letter) : tc = f.code := by
  cases tc <;> cases f <;> first | rfl | (revert h; decide)

theorem code_letter (f : IntFactory) : f.code.letter = f.letter := by cases f <;> rfl

theorem built_ref {s : BState} {t : List BEvent} (hi : BInv s t) (ids : Str → Option Int) (nm : Bool)
    {h : Nat} {name : Option Str} {r : BRef} {e : Elem} (hm : ⟨.reference r name, .ok (some h)⟩ ∈ t)
    (he : e = r.elem) : s.nameOf h = name ∧ ∀ n, e.levels ≤ n → s.toStr ids nm n h = e.toStr ids nm := by
  obtain ⟨o, h1, h2⟩ := hi.made _ hm h ⟨rfl, by simp⟩
  have h2 : o = ⟨name, .ref r⟩ := h2
  subst h2
  refine ⟨by simp [BState.nameOf, h1], ?_⟩
  intro n hn
  have hl : e.levels = 1 := by subst he; cases r <;> simp only [BRef.elem, Elem.levels]
  obtain ⟨m, rfl⟩ : ∃ m, n = m + 1 := ⟨n - 1, by omega⟩
  subst he
  cases r <;> simp only [BState.toStr, h1, BRef.toStr, Elem.toStr, BRef.elem]
  rename_i i x
  cases nm <;> cases ids i <;> rfl

mutual
theorem Built.str {s : BState} {t : List BEvent} (hi : BInv s t) (ids : Str → Option Int) (nm : Bool) :
    (e : Elem) → ∀ h name, Built t h name e → s.nameOf h = name ∧
      ∀ n, e.levels ≤ n → s.toStr ids nm n h = e.toStr ids nm
  | .prim tc mn mx a, h, name, hb => by
    have key : s.objs[h]? = some ⟨name, .prim tc mn mx a⟩ := by
      cases hb with
      | int hm ht =>
        obtain ⟨o, h1, h2, _⟩ := hi.made _ hm h ⟨rfl, by simp⟩
        rw [letter_inj _ _ ht, h1, h2]; rfl
      | ints hm ht =>
        obtain ⟨o, h1, h2, _⟩ := hi.made _ hm h ⟨rfl, by simp⟩
        rw [letter_inj _ _ ht, h1, h2]; rfl
      | char hm =>
        obtain ⟨o, h1, h2, _⟩ := hi.made _ hm h ⟨rfl, by simp⟩
        rw [h1, h2]; rfl
      | text hm =>
        obtain ⟨o, h1, h2, _⟩ := hi.made _ hm h ⟨rfl, by simp⟩
        rw [h1, h2]; rfl
      | reference hm he => rename_i r; cases r <;> cases he
    refine ⟨by simp [BState.nameOf, key], ?_⟩
    intro n hn
    obtain ⟨m, rfl⟩ : ∃ m, n = m + 1 := ⟨n - 1, by simp [Elem.levels] at hn; omega⟩
    simp only [BState.toStr, key, Elem.toStr]
  | .record fs a, h, name, hb => by
    cases hb with
    | record hm hf =>
      obtain ⟨o, h1, l, h2⟩ := hi.made _ hm h ⟨rfl, by simp⟩
      subst h2
      refine ⟨by simp [BState.nameOf, h1], ?_⟩
      intro n hn
      obtain ⟨m, rfl⟩ : ∃ m, n = m + 1 := ⟨n - 1, by simp [Elem.levels] at hn; omega⟩
      simp only [Elem.levels] at hn
      simp only [BState.toStr, h1, Elem.toStr, hi.recsOk _ _ _ h1, Option.getD_some]
      rw [BuiltAll.str hi ids nm fs _ hf m (by omega)]
      rfl
    | reference hm he => rename_i r; cases r <;> cases he
  | .refId i, h, name, hb => by
    cases hb with
    | reference hm he =>
      rename_i r
      exact built_ref hi ids nm hm he
  | .refName i, h, name, hb => by
    cases hb with
    | reference hm he =>
      rename_i r
      exact built_ref hi ids nm hm he
  | .refType i x, h, name, hb => by
    cases hb with
    | reference hm he =>
      rename_i r
      exact built_ref hi ids nm hm he
theorem BuiltAll.str {s : BState} {t : List BEvent} (hi : BInv s t) (ids : Str → Option Int) (nm : Bool) :
    (fs : Fields) → ∀ cs, BuiltAll t cs fs → ∀ n, fs.levels ≤ n →
      concatPy (cs.map fun c => do
        let u ← s.toStr ids nm n c
        .ok ('"' :: (nameStr (s.nameOf c) ++ ('"' :: u)))) = fs.toStr ids nm
  | .nil, cs, hb, n, hn => by
    cases hb; rfl
  | .cons name e fs, cs, hb, n, hn => by
    cases hb with
    | cons h1 h2 =>
      rename_i c cs
      simp only [Fields.levels] at hn
      obtain ⟨h3, h4⟩ := Built.str hi ids nm e c name h1
      have ih := BuiltAll.str hi ids nm fs cs h2 n (by omega)
      simp only [List.map_cons, concatPy, ih, h3, h4 n (by omega), Fields.toStr]
      cases e.toStr ids nm with
      | error x => rfl
      | ok u =>
        simp only [ok_bind]
        cases fs.toStr ids nm with
        | error x => rfl
        | ok v => simp [ok_bind]
end

/-- Every element that does not contain itself is some element. -/
theorem built_of_acc {s : BState} {t : List BEvent} (hi : BInv s t) (h : Nat) (ha : Acc (InRecord t) h)
    (hh : h < s.objs.length) : ∃ name e, Built t h name e := by
  induction ha with
  | intro h _ ih =>
    obtain ⟨ev, h1, h2⟩ := hi.origin h _ (List.getElem?_eq_getElem hh)
    obtain ⟨o, h3, h4⟩ := hi.made ev h1 h h2
    obtain ⟨call, result⟩ := ev
    obtain ⟨hr, hnl⟩ := h2
    simp only at hr
    subst hr
    have len : ∀ len : Option Int, len = none ∨ (∃ n : Nat, len = some n) ∨ (∃ k, len = some k ∧ k < 0) := by
      intro len
      cases len with
      | none => exact .inl rfl
      | some k =>
        rcases Int.lt_or_le k 0 with hk | hk
        · exact .inr (.inr ⟨k, rfl, hk⟩)
        · exact .inr (.inl ⟨k.toNat, by simp; omega⟩)
    cases call with
    | list xs => exact absurd rfl (hnl xs)
    | extend _ _ => exact h4.elim
    | append _ _ => exact h4.elim
    | int f name mn mx len' =>
      rcases len len' with rfl | ⟨n, rfl⟩ | ⟨k, rfl, hk⟩
      · exact ⟨name, _, .int h1 (code_letter f)⟩
      · exact ⟨name, _, .ints h1 (code_letter f)⟩
      · have := h4.2 k rfl
        omega
    | string name len' =>
      rcases len len' with rfl | ⟨n, rfl⟩ | ⟨k, rfl, hk⟩
      · exact ⟨name, _, .char h1⟩
      · exact ⟨name, _, .text h1⟩
      · have := h4.2 k rfl
        omega
    | reference r name => exact ⟨name, _, .reference h1 rfl⟩
    | record name es =>
      have : ∀ cs : List Nat, (∀ c ∈ cs, c ∈ childrenIn t h) → ∃ fs, BuiltAll t cs fs := by
        intro cs
        induction cs with
        | nil => intro _; exact ⟨_, .nil⟩
        | cons c cs ihc =>
          intro hc
          obtain ⟨name, e, hb⟩ := ih c (hc c (by simp)) (hi.kids h c (hc c (by simp)))
          obtain ⟨fs, hf⟩ := ihc fun c' hc' => hc c' (by simp [hc'])
          exact ⟨_, .cons hb hf⟩
      obtain ⟨fs, hf⟩ := this _ fun c hc => hc
      exact ⟨name, _, .record h1 hf⟩

theorem concatPy_ok {l : List (Py Str)} {u : Str} (h : concatPy l = .ok u) : ∀ x ∈ l, ∃ v, x = .ok v := by
  induction l generalizing u with
  | nil => simp
  | cons y ys ih =>
    simp only [concatPy, bind_ok_iff] at h
    obtain ⟨a, h1, b, h2, _⟩ := h
    intro x hx
    rcases List.mem_cons.1 hx with rfl | hx
    · exact ⟨a, h1⟩
    · exact ih h2 x hx

/-- When the text of a record can be made, so can those of the elements in it, with one call less. -/
theorem toStr_child {s : BState} {t : List BEvent} (hi : BInv s t) (ids : Str → Option Int) (nm : Bool)
    {n h c : Nat} {u : Str} (hc : InRecord t c h) (hu : s.toStr ids nm (n + 1) h = .ok u) :
    ∃ v, s.toStr ids nm n c = .ok v := by
  obtain ⟨m, l, hp⟩ := hi.parent h c hc
  simp only [BState.toStr, hp, hi.recsOk h m l hp, Option.getD_some, bind_ok_iff] at hu
  obtain ⟨w, hw, _⟩ := hu
  obtain ⟨v, hv⟩ := concatPy_ok hw _ (List.mem_map_of_mem hc)
  simp only [bind_ok_iff] at hv
  obtain ⟨x, hx, _⟩ := hv
  exact ⟨x, hx⟩

open Relation in
/-- An element that contains itself has no text. -/
theorem toStr_cycle {s : BState} {t : List BEvent} (hi : BInv s t) (ids : Str → Option Int) (nm : Bool)
    (n : Nat) : ∀ h u, TransGen (InRecord t) h h → s.toStr ids nm n h ≠ .ok u := by
  induction n with
  | zero => intro h u _ hu; simp [BState.toStr] at hu
  | succ n ih =>
    intro h u ht hu
    obtain ⟨c, hc, hcc⟩ : ∃ c, InRecord t c h ∧ TransGen (InRecord t) c c := by
      cases ht with
      | single h1 => exact ⟨h, h1, .single h1⟩
      | tail h1 h2 => exact ⟨_, h2, TransGen.trans (.single h2) h1⟩
    obtain ⟨v, hv⟩ := toStr_child hi ids nm hc hu
    exact ih c v hcc hv

end Apx
