import Verif.Model.VmObj
import Verif.Props.Vm

/-! C101: one virtual machine for everything. C102: the byte order asked for. -/

namespace Apx

/-! ### The object and the machine of `Verif.Model.Vm` -/

/-- The object that runs the machine `m` for a program of kind `d`. -/
def VmObj.running (d : Dir) (m : Vm) (first : Bool) : VmObj :=
  ⟨some m.data, some m.off, some d, some (d, m.st), first⟩

theorem verify_running (d : Dir) (n : Nat) (m : Vm) (f : Bool) :
    (do VmObj.verify n m.data m.off; .ok (VmObj.running d m f) : Py VmObj) =
      (verifyDataLen n m).map (VmObj.running d · f) := by
  unfold VmObj.verify verifyDataLen
  split <;> rfl

theorem instr_running (d : Dir) (i : Instr) (m : Vm) (f : Bool) :
    (VmObj.running d m f).instr i = (execInstr d i m).map (VmObj.running d · f) := by
  have key : ∀ {α : Type} (q : Py α) (g : α → VmObj) (k : α → Vm), (∀ a, g a = VmObj.running d (k a) f) →
      (do let a ← q; .ok (g a) : Py VmObj) = Except.map (VmObj.running d · f) (do let a ← q; .ok (k a)) := by
    intro α q g k hk
    cases q with
    | error x => rfl
    | ok a => simp only [ok_bind, Except.map, hk]
  cases d <;> cases i <;> first
    | rfl
    | exact verify_running ..
    | exact key _ _ _ (fun _ => rfl)

theorem loop_eq (d : Dir) (code : Bytes) (o : VmObj) : VmObj.loop d code o =
    match parseInstr code with
    | .error x => .error x
    | .ok none => .ok o
    | .ok (some (i, rest)) =>
      if o.first && !isProgHeader d i then .error .runtimeError
      else match VmObj.instr { o with first := false } i with
        | .error x => .error x
        | .ok o => VmObj.loop d rest o := by
  rw [VmObj.loop.eq_def]
  split <;> rename_i h <;> simp only [h] <;> rfl

theorem runVm_eq (d : Dir) (f : Bool) (code : Bytes) (m : Vm) : runVm d f code m =
    match parseInstr code with
    | .error x => .error x
    | .ok none => .ok m
    | .ok (some (i, rest)) =>
      if f && !isProgHeader d i then .error .runtimeError
      else match execInstr d i m with
        | .error x => .error x
        | .ok m => runVm d false rest m := by
  rw [runVm.eq_def]
  split <;> rename_i h <;> simp only [h] <;> rfl

theorem loop_running (d : Dir) (code : Bytes) (m : Vm) (f : Bool) :
    (∀ m', runVm d f code m = .ok m' → ∃ f', VmObj.loop d code (VmObj.running d m f) = .ok (VmObj.running d m' f')) ∧
      ∀ x, runVm d f code m = .error x → VmObj.loop d code (VmObj.running d m f) = .error x := by
  induction hn : code.length using Nat.strongRecOn generalizing code m f with
  | _ k ih =>
    subst hn
    rw [runVm_eq, loop_eq]
    cases hx : parseInstr code with
    | error x => exact ⟨by intro m' h; simp at h, fun y h => by simpa using h⟩
    | ok q =>
      cases q with
      | none => exact ⟨fun m' h => ⟨f, by simp only [Except.ok.injEq] at h; rw [h]⟩, by intro y h; simp at h⟩
      | some q =>
        obtain ⟨i, rest⟩ := q
        have hfirst : (VmObj.running d m f).first = f := rfl
        simp only [hfirst]
        by_cases hc : (f && !isProgHeader d i) = true
        · rw [if_pos hc, if_pos hc]
          exact ⟨by intro m' h; simp at h, fun x h => by simpa using h⟩
        · rw [if_neg hc, if_neg hc]
          have hi : VmObj.instr { VmObj.running d m f with first := false } i =
              (execInstr d i m).map (VmObj.running d · false) := instr_running d i m false
          rw [hi]
          cases execInstr d i m with
          | error x => exact ⟨by intro m' h; simp at h, fun y h => by simpa [Except.map] using h⟩
          | ok m1 => exact ih _ (parseInstr_length hx) rest m1 false rfl

theorem verify_self (data : Bytes) (off : Nat) : VmObj.verify ((data.length : Int) - off) data off = .ok () := by
  unfold VmObj.verify
  rw [if_neg (by omega)]

/-- Packing with an object in any state. -/
theorem execPack_eq (o : VmObj) (code data : Bytes) (off : Nat) (v : PyVal) (left : VmObj) :
    (o.execPack code data off v left).2 = execPackProg code data off v := by
  unfold VmObj.execPack VmObj.initPack execPackProg
  rw [verify_self]
  have h := loop_running .pack code ⟨VmState.init v, data, off⟩ true
  cases hr : runVm .pack true code ⟨VmState.init v, data, off⟩ with
  | error x =>
    have h2 : VmObj.loop .pack code ⟨some data, some off, some .pack, some (.pack, VmState.init v), true⟩ = .error x :=
      h.2 x hr
    simp only [h2]
    rfl
  | ok m =>
    obtain ⟨f', h2⟩ := h.1 m hr
    have h3 : VmObj.loop .pack code ⟨some data, some off, some .pack, some (.pack, VmState.init v), true⟩ =
      .ok (VmObj.running .pack m f') := h2
    simp only [h3]
    rfl

/-- Unpacking with an object in any state, and reading `value`. -/
theorem execUnpack_eq (o : VmObj) (code data : Bytes) (off : Nat) (left : VmObj) :
    (∀ v, execUnpackProg code data off = .ok v →
      (o.execUnpack code data off left).2 = .ok () ∧ (o.execUnpack code data off left).1.value = .ok v) ∧
    ∀ x, execUnpackProg code data off = .error x → (o.execUnpack code data off left).2 = .error x := by
  unfold VmObj.execUnpack VmObj.initUnpack execUnpackProg
  rw [verify_self]
  have h := loop_running .unpack code ⟨VmState.init .null, data, off⟩ true
  cases hr : runVm .unpack true code ⟨VmState.init .null, data, off⟩ with
  | error x =>
    have h2 : VmObj.loop .unpack code ⟨some data, some off, some .unpack, some (.unpack, VmState.init .null), true⟩ =
      .error x := h.2 x hr
    simp only [h2]
    exact ⟨by intro v h; simp [error_bind] at h, fun y h => by simpa [error_bind] using h⟩
  | ok m =>
    obtain ⟨f', h2⟩ := h.1 m hr
    have h3 : VmObj.loop .unpack code ⟨some data, some off, some .unpack, some (.unpack, VmState.init .null), true⟩ =
      .ok (VmObj.running .unpack m f') := h2
    simp only [h3]
    refine ⟨?_, by intro x h; simp [ok_bind] at h⟩
    intro v h
    simp only [ok_bind, Except.ok.injEq] at h
    subst h
    simp only [VmObj.value, VmObj.running, true_and]

/-! ### C101 -/

/-- C101: after any calls of its methods, failing ones included, and whatever those left behind, a
machine packs and unpacks as a new machine does. -/
theorem C101_again (le : Bool) (before : List VmCall) (code data : Bytes) (off : Nat) (left left' : VmObj) :
    (∀ v, (((VmObj.new le).calls before).execPack code data off v left).2 =
      ((VmObj.new true).execPack code data off v left').2) ∧
    (((VmObj.new le).calls before).execUnpack code data off left).2 =
      ((VmObj.new true).execUnpack code data off left').2 ∧
    ((((VmObj.new le).calls before).execUnpack code data off left).2 = .ok () →
      (((VmObj.new le).calls before).execUnpack code data off left).1.value =
        ((VmObj.new true).execUnpack code data off left').1.value) := by
  refine ⟨fun v => by rw [execPack_eq, execPack_eq], ?_⟩
  have h1 := execUnpack_eq ((VmObj.new le).calls before) code data off left
  have h2 := execUnpack_eq (VmObj.new true) code data off left'
  cases hu : execUnpackProg code data off with
  | error x =>
    rw [h1.2 x hu, h2.2 x hu]
    exact ⟨rfl, by simp⟩
  | ok v =>
    rw [(h1.1 v hu).1, (h1.1 v hu).2, (h2.1 v hu).1, (h2.1 v hu).2]
    exact ⟨rfl, fun _ => rfl⟩

/-- C101: there is no value to read or replace before the first program and after `reset()`. -/
theorem C101_no_value (le : Bool) (o : VmObj) (v : PyVal) :
    (VmObj.new le).value = .error .runtimeError ∧ ((VmObj.new le).setValue v).2 = .error .runtimeError ∧
      o.reset.value = .error .runtimeError ∧ (o.reset.setValue v).2 = .error .runtimeError := ⟨rfl, rfl, rfl, rfl⟩

/-- C101: where there is a value it can be replaced, and is then the value read; replacing it raises no exception. -/
theorem C101_set_value (o : VmObj) (w v : PyVal) (h : o.value = .ok w) :
    (o.setValue v).2 = .ok () ∧ (o.setValue v).1.value = .ok v := by
  unfold VmObj.value at h
  unfold VmObj.setValue
  cases hs : o.state with
  | none => rw [hs] at h; simp at h
  | some p => exact ⟨rfl, rfl⟩

/-- C101: after `reset()`, as before the first program, no instruction is executed: the beginning of a program is
refused with `RuntimeError`, every other instruction with `AttributeError`. -/
theorem C101_reset (le : Bool) (o : VmObj) (i : Instr) (m : VmObj) (hm : m = o.reset ∨ m = VmObj.new le) :
    ((∃ n, i = .packProg n ∨ i = .unpackProg n) → m.instr i = .error .runtimeError) ∧
      ((¬ ∃ n, i = .packProg n ∨ i = .unpackProg n) → m.instr i = .error .attributeError) := by
  rcases hm with rfl | rfl <;> cases i <;>
    simp [VmObj.instr, VmObj.progInstr, VmObj.stateInstr, VmObj.reset, VmObj.new]

/-! ### Node data -/

theorem ndvm_unpack (x : NodeDataVm) (r : PortRange) (left : VmObj) :
    (x.unpackRequire r left).1.nd = (x.nd.unpackRequire r).1 ∧ (x.unpackRequire r left).2 = (x.nd.unpackRequire r).2 := by
  unfold NodeDataVm.unpackRequire NodeData.unpackRequire
  cases x.nd.inProgs[r.id]? with
  | none => exact ⟨rfl, rfl⟩
  | some prog =>
    simp only
    cases x.nd.inFile with
    | none => exact ⟨rfl, rfl⟩
    | some f =>
      simp only
      cases f.read r.offset r.len with
      | none => exact ⟨rfl, rfl⟩
      | some data =>
        simp only
        by_cases hl : x.nd.locked = true
        · rw [if_pos hl, if_pos hl]
          exact ⟨rfl, rfl⟩
        · rw [if_neg hl, if_neg hl]
          have h := execUnpack_eq x.vm prog data 0 left
          generalize x.vm.execUnpack prog data 0 left = w at h
          obtain ⟨vm, o⟩ := w
          cases hu : execUnpackProg prog data 0 with
          | error e =>
            have h1 : o = .error e := h.2 e hu
            subst h1
            exact ⟨rfl, rfl⟩
          | ok v =>
            have h1 : o = .ok () := (h.1 v hu).1
            have h2 : vm.value = .ok v := (h.1 v hu).2
            subst h1
            simp only [h2]
            exact ⟨trivial, trivial⟩

theorem ndvm_write (x : NodeDataVm) (i : Int) (v : PyVal) (left : VmObj) :
    (x.write i v left).1.nd = (x.nd.writeProvide i v).1 ∧ (x.write i v left).2 = (x.nd.writeProvide i v).2 := by
  unfold NodeDataVm.write NodeData.writeProvide
  cases NodeData.lookupRange x.nd.outRanges i with
  | error e => exact ⟨rfl, rfl⟩
  | ok r =>
    simp only
    cases x.nd.outProgs[r.id]? with
    | none => exact ⟨rfl, rfl⟩
    | some prog =>
      simp only
      by_cases hl : x.nd.locked = true
      · rw [if_pos hl, if_pos hl]
        exact ⟨rfl, rfl⟩
      · rw [if_neg hl, if_neg hl]
        have h := execPack_eq x.vm prog (List.replicate r.len 0) 0 v left
        generalize x.vm.execPack prog (List.replicate r.len 0) 0 v left = w at h
        obtain ⟨vm, o⟩ := w
        simp only at h
        rw [← h]
        cases o with
        | error e => exact ⟨rfl, rfl⟩
        | ok data =>
          simp only
          cases x.nd.outFile <;> exact ⟨rfl, rfl⟩

theorem ndvm_loop (rs : List PortRange) (x : NodeDataVm) (left : VmObj) :
    (x.notifyLoop left rs).1.nd = (x.nd.notifyLoop rs).1 ∧ (x.notifyLoop left rs).2 = (x.nd.notifyLoop rs).2 := by
  induction rs generalizing x with
  | nil => exact ⟨rfl, rfl⟩
  | cons r rs ih =>
    rw [NodeDataVm.notifyLoop, NodeData.notifyLoop]
    have h := ndvm_unpack x r left
    generalize x.unpackRequire r left = w at h
    generalize x.nd.unpackRequire r = w' at h
    obtain ⟨y, o⟩ := w
    obtain ⟨nd, o'⟩ := w'
    obtain ⟨h1, h2⟩ := h
    simp only at h1 h2
    subst h1
    subst h2
    cases o with
    | raised e => exact ⟨rfl, rfl⟩
    | blocked => exact ⟨rfl, rfl⟩
    | ok v =>
      obtain ⟨i1, i2⟩ := ih y
      refine ⟨i1, ?_⟩
      simp only [i2]

/-- What the model with a machine for every run shows of an operation. -/
def NodeData.seen (nd : NodeData) : Access → NodeDataVm.Seen
  | .write i v => .wrote (nd.writeProvide i v).2
  | .read i => .got (nd.readRequire i).2
  | .remote c off data more => .remote (nd.remoteWrite c off data more).2.1 (nd.remoteWrite c off data more).2.2

theorem ndvm_step (x : NodeDataVm) (left : VmObj) (a : Access) :
    (x.step left a).1.nd = x.nd.step a ∧ (x.step left a).2 = x.nd.seen a := by
  cases a with
  | write i v =>
    obtain ⟨h1, h2⟩ := ndvm_write x i v left
    exact ⟨h1, congrArg _ h2⟩
  | read i =>
    simp only [NodeDataVm.step, NodeDataVm.read, NodeData.step, NodeData.seen, NodeData.readRequire]
    cases NodeData.lookupRange x.nd.inRanges i with
    | error e => exact ⟨rfl, rfl⟩
    | ok r =>
      obtain ⟨h1, h2⟩ := ndvm_unpack x r left
      exact ⟨h1, congrArg _ h2⟩
  | remote c off data more =>
    simp only [NodeDataVm.step, NodeDataVm.remoteWrite, NodeData.step, NodeData.seen, NodeData.remoteWrite]
    cases x.nd.inFile with
    | none => exact ⟨rfl, rfl⟩
    | some f =>
      simp only [NodeData.afterRemote]
      cases (f.inputWrite off data more true).2.2 with
      | none => exact ⟨rfl, rfl⟩
      | some note =>
        simp only [NodeDataVm.inPortNotify, NodeData.inPortNotify]
        cases c with
        | false => exact ⟨rfl, rfl⟩
        | true =>
          simp only [if_true]
          cases NodeData.byteToPort _ off data.length with
          | error e => exact ⟨rfl, rfl⟩
          | ok rs =>
            simp only
            have h := ndvm_loop rs ⟨{ x.nd with inFile := some (f.inputWrite off data more true).1 }, x.vm⟩ left
            generalize NodeDataVm.notifyLoop _ _ _ = w at h
            generalize NodeData.notifyLoop _ _ = w' at h
            obtain ⟨y, l, o⟩ := w
            obtain ⟨nd, l', o'⟩ := w'
            obtain ⟨h1, h2⟩ := h
            simp only [Prod.mk.injEq] at h1 h2
            obtain ⟨rfl, rfl⟩ := h2
            subst h1
            cases o <;> exact ⟨rfl, rfl⟩

/-- The results of a history of operations on an object with one machine; with every operation, what it leaves of the
machine if it fails. -/
def NodeDataVm.results (x : NodeDataVm) : List (Access × VmObj) → List NodeDataVm.Seen
  | [] => []
  | (a, left) :: as => (x.step left a).2 :: NodeDataVm.results (x.step left a).1 as

/-- The same with a new machine for every run of a program. -/
def NodeData.results (nd : NodeData) : List Access → List NodeDataVm.Seen
  | [] => []
  | a :: as => nd.seen a :: NodeData.results (nd.step a) as

/-- C101: a node uses one machine for all its ports and in both directions. Over any history of writes, reads and data
received, failing ones included, every result and every value reported is as if each had been computed by a new machine. -/
theorem C101_node (nd : NodeData) (vm : VmObj) (history : List (Access × VmObj)) :
    NodeDataVm.results ⟨nd, vm⟩ history = nd.results (history.map (·.1)) := by
  suffices h : ∀ x : NodeDataVm, x.results history = x.nd.results (history.map (·.1)) from h ⟨nd, vm⟩
  induction history with
  | nil => intro x; rfl
  | cons p as ih =>
    intro x
    obtain ⟨a, left⟩ := p
    obtain ⟨h1, h2⟩ := ndvm_step x left a
    simp only [NodeDataVm.results, NodeData.results, List.map_cons, h2, ih, h1]

/-! ### C102 -/

/-- C102: a machine made for little-endian data packs a value into its little-endian layout, whatever it has been used
for before. Missing: machines made for big-endian data, below. -/
theorem C102_little_partial (e : Elem) (prog : Bytes) (hc : compileProg .pack e = .ok prog) (hl : e.LensOk)
    (hn : e.NamesOk) (v : PyVal) (bs : Bytes) (hlay : e.layout v = some bs) (ha : e.ArraysOk v)
    (data : Bytes) (off : Nat) (hd : off + bs.length ≤ data.length) (before : List VmCall) (left : VmObj) :
    (((VmObj.new true).calls before).execPack prog data off v left).2 =
      .ok (data.take off ++ bs ++ data.drop (off + bs.length)) := by
  rw [execPack_eq]
  exact (C25_pack e prog hc hl hn v bs hlay ha data off hd).1

/-- C102 fails for every machine made for big-endian data: it packs every value into its little-endian layout too, and
for a number this is not the big-endian one. -/
theorem C102_big_violated (e : Elem) (prog : Bytes) (hc : compileProg .pack e = .ok prog) (hl : e.LensOk)
    (hn : e.NamesOk) (v : PyVal) (bs : Bytes) (hlay : e.layout v = some bs) (ha : e.ArraysOk v)
    (data : Bytes) (off : Nat) (hd : off + bs.length ≤ data.length) (before : List VmCall) (left : VmObj) :
    (((VmObj.new false).calls before).execPack prog data off v left).2 =
      .ok (data.take off ++ bs ++ data.drop (off + bs.length)) ∧
    (((VmObj.new false).calls before).execPack [1, 2, 0, 0, 0, 4] [0, 0] 0 (.int 0x1234) left).2 = .ok [0x34, 0x12] := by
  rw [execPack_eq, execPack_eq]
  refine ⟨(C25_pack e prog hc hl hn v bs hlay ha data off hd).1, ?_⟩
  decide +kernel

/-! ### The theorems apply -/

/-- A machine that failed in the middle of a record (the value has no `y`), was left with half of it, and was then
given a value by hand. -/
def voUsed : VmObj :=
  let left : VmObj := ⟨some [7, 0, 0], some 1, some .pack,
    some (.pack, ⟨.dict [(['x'], .int 7)], some ['y'], none, []⟩), false⟩
  (VmObj.new true).calls
    [.execPack [1, 3, 0, 0, 0, 29, 30, 120, 0, 3, 30, 121, 0, 4, 31] [0, 0, 0] 0 (.dict [(['x'], .int 7)]) left,
      .setValue (.int 5)]

/-- The call did fail. -/
example : (((VmObj.new true).execPack [1, 3, 0, 0, 0, 29, 30, 120, 0, 3, 30, 121, 0, 4, 31] [0, 0, 0] 0
    (.dict [(['x'], .int 7)]) voUsed).2 = .error .keyError) ∧ (voUsed.value.toOption.isSome) = true := by decide +kernel

/-- It has a value, which can be replaced. -/
example : voUsed.value.toOption.isSome := by decide +kernel

/-- The used machine reads a record. -/
example : (match (voUsed.execUnpack [2, 3, 0, 0, 0, 29, 30, 120, 0, 16, 30, 121, 0, 17, 31] [7, 1, 2] 0 voUsed).1.value with
    | .ok (.dict [(['x'], .int 7), (['y'], .int 513)]) => true
    | _ => false) = true := by decide +kernel

/-- A program, type and value for C102: `{"x"C"y"S}` with 7 and 258. -/
example : let e : Elem := .record (.cons (some ['x']) (.prim .u8 none none none)
      (.cons (some ['y']) (.prim .u16 none none none) .nil)) none
    (compileProg .pack e).toOption.isSome = true ∧ e.layout (.dict [(['x'], .int 7), (['y'], .int 258)]) = some [7, 2, 1] := by
  decide +kernel

end Apx
