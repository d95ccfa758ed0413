import Verif.Props.ParserMore
import Verif.Props.Com

/-! C49 after a refused text, and C87: where they fail, for all texts and all functions. -/

namespace Apx

/-! ### C49 -/

theorem resolveLoop_noParse (k : Nat) (e : Elem) : e.resolveLoop k ≠ .error .parseError := by
  induction k generalizing e with
  | zero => cases e <;> simp [Elem.resolveLoop]
  | succ k ih =>
    cases e with
    | refType _ t => simpa only [Elem.resolveLoop] using ih t
    | _ => simp [Elem.resolveLoop]

theorem pyIndex_noParse {α : Type} (l : List α) (i : Int) : pyIndex l i ≠ .error .parseError := by
  unfold pyIndex
  split <;> simp

mutual
theorem resolveType_noParse (types : List NamedType) : ∀ e : Elem, e.resolveType types ≠ .error .parseError
  | .refType _ _ => by simp [Elem.resolveType]
  | .refId i => by
    simp only [Elem.resolveType]
    cases h : pyIndex types i with
    | ok t => simp [ok_bind]
    | error x =>
      rw [error_bind]
      intro hx
      cases hx
      exact pyIndex_noParse _ _ h
  | .refName n => by
    simp only [Elem.resolveType]
    split <;> simp
  | .prim _ _ _ _ => by simp [Elem.resolveType]
  | .record fs a => by
    simp only [Elem.resolveType]
    cases h : fs.resolveType types with
    | ok t => simp [ok_bind]
    | error x =>
      rw [error_bind]
      intro hx
      cases hx
      exact resolveFields_noParse types fs h
theorem resolveFields_noParse (types : List NamedType) : ∀ fs : Fields, fs.resolveType types ≠ .error .parseError
  | .nil => by simp [Fields.resolveType]
  | .cons n e r => by
    simp only [Fields.resolveType]
    cases h : e.resolveType types with
    | error x =>
      rw [error_bind]
      intro hx
      cases hx
      exact resolveType_noParse types e h
    | ok e' =>
      rw [ok_bind]
      cases h' : r.resolveType types with
      | ok t => simp [ok_bind]
      | error x =>
        rw [error_bind]
        intro hx
        cases hx
        exact resolveFields_noParse types r h'
end

theorem resolvePort_noParse (types : List NamedType) (p : Port) : resolvePort types p ≠ .error .parseError := by
  unfold resolvePort
  split
  · unfold resolveDsg
    cases h : p.elem.resolveType types with
    | error x =>
      simp only [error_bind]
      intro hx
      cases hx
      exact resolveType_noParse _ _ h
    | ok e =>
      simp only [ok_bind]
      cases h' : e.resolveDataElement with
      | ok d => simp [ok_bind]
      | error x =>
        simp only [error_bind]
        intro hx
        cases hx
        exact resolveLoop_noParse _ _ h'
  · simp

theorem mapPy_noParse {α β : Type} {f : α → Py β} (hf : ∀ x, f x ≠ .error .parseError) (l : List α) :
    mapPy f l ≠ .error .parseError := by
  induction l with
  | nil => simp [mapPy]
  | cons x l ih =>
    simp only [mapPy]
    cases h : f x with
    | error y =>
      rw [error_bind]
      intro hx
      cases hx
      exact hf x h
    | ok y =>
      rw [ok_bind]
      cases h' : mapPy f l with
      | ok t => simp [ok_bind]
      | error y =>
        rw [error_bind]
        intro hx
        cases hx
        exact ih h'

theorem resolveTypes_noParse (n : Node) : n.resolveTypes ≠ .error .parseError := by
  unfold Node.resolveTypes
  cases h : mapPy (resolvePort n.named) n.requires with
  | error x =>
    rw [error_bind]
    intro hx
    cases hx
    exact mapPy_noParse (resolvePort_noParse _) _ h
  | ok r =>
    rw [ok_bind]
    cases h' : mapPy (resolvePort n.named) n.provides with
    | ok t => simp [ok_bind]
    | error y =>
      rw [error_bind]
      intro hx
      cases hx
      exact mapPy_noParse (resolvePort_noParse _) _ h'

/-- A line that is refused leaves the node as it was. -/
theorem processLine_error {st st' : Parser} {l : Str} {x : PyErr} (h : st.processLine l = (st', .error x)) :
    st'.node = st.node := by
  have ht : ∀ (s : Parser) (l : Line), s.typeLine l = (st', .error x) → st'.node = s.node := by
    intro s l h
    unfold Parser.typeLine at h
    split at h <;> cases h
    rfl
  have hp : ∀ (s : Parser) (side : Side) (l : Line), s.portLine side l = (st', .error x) → st'.node = s.node := by
    intro s side l h
    unfold Parser.portLine at h
    split at h <;> cases h
    rfl
  unfold Parser.processLine Parser.processParts at h
  repeat' split at h
  all_goals first
    | (cases h; rfl)
    | (have h' := ht _ _ h; exact h')
    | (have h' := hp _ _ _ h; exact h')
    | cases h

/-- C49 is violated after every text that is refused with a parse error: the parser keeps what it had read of it, and
every text that says nothing then loads as the node of the lines before the refused one, as if these had been the text. -/
theorem C49_after_error_violated (q : Str) (hq : SaysNothing q) (st : Parser) (t bad : Str) (rest : List Str) (n : Node)
    (ho : OneLiners (bad :: rest)) (h : (st.loads t).2 = .ok n)
    (he : (st.loads (t ++ '\n' :: bad)).2 = .error .parseError) :
    let r := st.loads (t ++ '\n' :: joinLines (bad :: rest))
    r.2 = .error .parseError ∧ (r.1.loads q).2 = .ok n ∧ (r.1.load q).2 = .ok n := by
  intro r
  have ho1 : OneLiners [bad] := fun l hl => ho l (by simp at hl; simp [hl])
  have ha := lines_append t [bad] (by simp) ho1
  have hb := lines_append t (bad :: rest) (by simp) ho
  have hj : joinLines [bad] = bad := by simp [joinLines]
  rw [hj] at ha
  rw [loads_eq, ha.1, ha.2] at he
  have hr : r = st.loads (t ++ '\n' :: joinLines (bad :: rest)) := rfl
  rw [loads_eq, hb.1, hb.2] at hr
  rw [loads_eq] at h
  by_cases hv : parseHeaderLine (rstripNewline (firstLine t)) ≠ none ∧
      parseHeaderLine (rstripNewline (firstLine t)) ≠ some ('1', '2')
  · rw [if_pos hv] at h
    cases h
  rw [if_neg hv] at h he hr
  have hl : ∀ ex : List Str, (if parseHeaderLine (rstripNewline (firstLine t)) = none then firstLine t :: (otherLines t ++ ex)
      else otherLines t ++ ex) = (if parseHeaderLine (rstripNewline (firstLine t)) = none then firstLine t :: otherLines t
      else otherLines t) ++ ex := by
    intro ex
    split <;> rfl
  rw [hl] at he hr
  generalize hls : (if parseHeaderLine (rstripNewline (firstLine t)) = none then firstLine t :: otherLines t
    else otherLines t) = ls at h he hr
  rw [processLines_append] at he hr
  cases hp : Parser.processLines ⟨st.node, .start⟩ ls with
  | mk s o =>
    rw [hp] at h he hr
    cases o with
    | error x => cases h
    | ok u =>
      cases u
      simp only [Parser.processLines] at he hr
      simp only [Parser.finish] at h
      cases hn : s.node with
      | none => rw [hn] at h; cases h
      | some m =>
        rw [hn] at h
        simp only at h
        have hm : m.resolveTypes = .ok n := by
          cases hmr : m.resolveTypes with
          | error x => rw [hmr] at h; cases h
          | ok m' => rw [hmr] at h; cases h; rfl
        cases hpb : s.processLine bad with
        | mk s' o' =>
          rw [hpb] at he hr
          cases o' with
          | ok u =>
            exfalso
            cases u
            simp only [Parser.finish] at he
            split at he
            · cases he
            · split at he
              · cases he
              · rename_i hx
                simp only [Except.error.injEq] at he
                subst he
                exact resolveTypes_noParse _ hx
          | error x =>
            simp only [Except.error.injEq] at he
            subst he
            have hs := processLine_error hpb
            have h1 : r.1.node = some m := by rw [hr]; exact hs.trans hn
            refine ⟨by rw [hr], ?_, ?_⟩
            · rw [(loads_nothing hq _).1]
              simp only [Parser.finish, h1, hm]
            · rw [(loads_nothing hq _).2]
              simp only [Parser.finish, h1, hm]

example : (Parser.new.loads "N\"A\"\nR\"x\"C".toList).2.toOption.isSome ∧
    OneLiners ["Hello".toList, "R\"z\"C".toList] ∧
    (match (Parser.new.loads ("N\"A\"\nR\"x\"C".toList ++ '\n' :: "Hello".toList)).2 with
      | .error x => decide (x = .parseError)
      | .ok _ => false) = true := by
  refine ⟨by decide +kernel, ?_, by decide +kernel⟩
  intro l hl
  simp only [List.mem_cons, List.not_mem_nil, or_false] at hl
  rcases hl with rfl | rfl <;> decide +kernel

/-! ### C87 -/

/-- C87 fails for every data element whose initial value is not that of the port: sending the initial value of the
element as the first value writes nothing and tells nobody, so that the port keeps whatever it holds. -/
theorem C87_init_violated (g : Generated) (sfx : Str) (direct : List Str) (fs : List ComFunc)
    (hnd : (fs.map ComFunc.var).Nodup) (f : ComFunc) (hf : f ∈ fs) :
    (ComState.start g fs).send g sfx direct f f.init = some (ComState.start g fs) ∧
      (ComState.start g fs).buf = g.outInit ∧ (ComState.start g fs).notes = [] := by
  refine ⟨?_, rfl, rfl⟩
  have h := comVars_lookup fs hnd [] (fun _ _ => rfl) f hf
  simp only [ComState.send, ComState.start, h, if_true]

/-- C87 fails for all functions of different ports whose port and element names, joined by `_`, are the same: in any
state, a value that has just been sent through one of them is not written when it is sent through the other. -/
theorem C87_shared_violated (g : Generated) (sfx : Str) (direct : List Str) (f f' : ComFunc)
    (hj : f.port ++ ('_' :: f.element) = f'.port ++ ('_' :: f'.element)) (s s' : ComState) (v : CVal)
    (h : s.send g sfx direct f v = some s') : s'.send g sfx direct f' v = some s' := by
  have hv : f'.var = f.var := by simp only [ComFunc.var, hj]
  have hl : s'.vars.lookup f.var = some v := by
    simp only [ComState.send] at h
    cases hx : s.vars.lookup f.var with
    | none => rw [hx] at h; cases h
    | some x =>
      rw [hx] at h
      simp only at h
      split at h
      · rename_i he
        cases h
        rw [hx, he]
      · obtain ⟨m, _, rfl⟩ := Option.map_eq_some_iff.mp h
        simp only [setVar_lookup _ _ _ _ hx, if_true]
  simp only [ComState.send, hv, hl, if_true]

example : "a".toList ++ ('_' :: "b_c".toList) = "a_b".toList ++ ('_' :: "c".toList) ∧ "a".toList ≠ "a_b".toList := by
  decide +kernel

end Apx
