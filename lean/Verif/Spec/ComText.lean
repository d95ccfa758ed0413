import Verif.Spec.CDispatch

/-!
How a C compiler reads the source of a communication layer, and what calls of its functions do. One declaration or
statement is on each line, and the brace in the first column ends a function; everything else is refused.
-/

namespace Apx

/-! ### The file -/

/-- What the source consists of. -/
inductive ComItem
  /-- `static type name = init;` -/
  | var (type name init : Str)
  /-- a function, with the lines between its braces -/
  | func (head : CProto) (lines : List Str)
  deriving DecidableEq

/-- The name that is declared. -/
def ComItem.name : ComItem → Str
  | .var _ n _ => n
  | .func p _ => p.name

/-- The head of a function. -/
def ComItem.head : ComItem → Option CProto
  | .var _ _ _ => none
  | .func p _ => some p

/-- `static type name = init;`; the initializer is what is between `=` and the semicolon at the end. -/
def readVariable (l : Str) : Option ComItem :=
  match lexC (l.takeWhile fun c => c ≠ '='), l.dropWhile fun c => c ≠ '=' with
  | [.word s, .word t, .word n], _ :: r =>
    if s = "static".toList ∧ CIdent t ∧ CIdent n ∧ r.getLast? = some ';' then
      some (.var t n (r.dropLast.dropWhile fun c => c = ' '))
    else none
  | _, _ => none

/-- Where the reader is: between declarations, after the head of a function, or between its braces. -/
inductive ComPlace
  | top
  | head (p : CProto)
  | body (p : CProto) (lines : List Str)

/-- The lines of the source. -/
def readComItems : ComPlace → List Str → Option (List ComItem)
  | .top, [] => some []
  | .top, l :: ls =>
    if cSkipped l then readComItems .top ls
    else if (lexC l).head? = some (kw "static") then
      (readVariable l).bind fun i => (readComItems .top ls).map fun r => i :: r
    else (readHead (lexC l)).bind fun x => if x.2 = [] then readComItems (.head x.1) ls else none
  | .head p, l :: ls => if l = ['{'] then readComItems (.body p []) ls else none
  | .body p lines, l :: ls =>
    if l = ['}'] then (readComItems .top ls).map fun r => .func p lines :: r
    else readComItems (.body p (lines ++ [l])) ls
  | _, [] => none

/-- The source; no name is declared twice. -/
def readComSource (text : Str) : Option (List ComItem) :=
  (readComItems .top (cLines text)).bind fun u => if (u.map ComItem.name).Nodup then some u else none

/-! ### Statements -/

/-- A statement without inner statements. -/
inductive ComSimple
  /-- `x = a;` -/
  | assign (x a : Str)
  /-- `memcpy(&x, a, sizeof(s));` -/
  | copy (x a s : Str)
  /-- `f(x);`, or `f(&x);` if `ref` -/
  | call (f x : Str) (ref : Bool)
  deriving DecidableEq

/-- A condition. -/
inductive ComCond
  /-- `a != b` -/
  | differ (a b : Str)
  /-- `memcmp(a, &x, sizeof(s)) != 0` -/
  | memDiffer (a x s : Str)
  deriving DecidableEq

/-- A statement. -/
inductive ComStmt
  | simple (s : ComSimple)
  | cond (c : ComCond) (body : List ComSimple)
  deriving DecidableEq

/-- `if (a != b)` or `if (memcmp(a, &x, sizeof(s)) != 0)` -/
def readComCond : List CTok → Option ComCond
  | [.word i, .sym '(', .word a, .sym '!', .sym '=', .word b, .sym ')'] =>
    if i = "if".toList ∧ CIdent a ∧ CIdent b then some (.differ a b) else none
  | [.word i, .sym '(', .word m, .sym '(', .word a, .sym ',', .sym '&', .word x, .sym ',', .word k, .sym '(', .word s, .sym ')',
      .sym ')', .sym '!', .sym '=', .word z, .sym ')'] =>
    if i = "if".toList ∧ m = "memcmp".toList ∧ k = "sizeof".toList ∧ z = ['0'] ∧ CIdent a ∧ CIdent x ∧ CIdent s then
      some (.memDiffer a x s)
    else none
  | _ => none

/-- An assignment, a copy or a call. -/
def readComSimple : List CTok → Option ComSimple
  | [.word x, .sym '=', .word a, .sym ';'] => if CIdent x ∧ CIdent a then some (.assign x a) else none
  | [.word m, .sym '(', .sym '&', .word x, .sym ',', .word a, .sym ',', .word k, .sym '(', .word s, .sym ')', .sym ')', .sym ';'] =>
    if m = "memcpy".toList ∧ k = "sizeof".toList ∧ CIdent x ∧ CIdent a ∧ CIdent s then some (.copy x a s) else none
  | [.word f, .sym '(', .word x, .sym ')', .sym ';'] => if CIdent f ∧ CIdent x then some (.call f x false) else none
  | [.word f, .sym '(', .sym '&', .word x, .sym ')', .sym ';'] => if CIdent f ∧ CIdent x then some (.call f x true) else none
  | _ => none

/-- Where the reader is: outside of the condition, after it, or between its braces. -/
inductive InCond
  | outside
  | head (c : ComCond)
  | inside (c : ComCond) (body : List ComSimple)

/-- The statements, up to `return E_OK;`, which ends them. -/
def readComStmts : InCond → List (List CTok) → Option (List ComStmt)
  | .outside, l :: ls =>
    if l = lexC "return E_OK;".toList then if ls = [] then some [] else none
    else if l.head? = some (kw "if") then (readComCond l).bind fun c => readComStmts (.head c) ls
    else (readComSimple l).bind fun s => (readComStmts .outside ls).map fun r => .simple s :: r
  | .head c, l :: ls => if l = [.sym '{'] then readComStmts (.inside c []) ls else none
  | .inside c body, l :: ls =>
    if l = [.sym '}'] then (readComStmts .outside ls).map fun r => .cond c body :: r
    else (readComSimple l).bind fun s => readComStmts (.inside c (body ++ [s])) ls
  | _, [] => none

/-! ### Execution -/

/-- What a function can see: the variables, its argument, and everything else. -/
structure ComFrame (W : Type) where
  vars : Str → Option CVal
  arg : CVal
  world : W

/-- What is declared: the file, and the functions of the header of the node. -/
structure ComDecls where
  file : List ComItem
  protos : List CProto

/-- The type of a variable with this name. -/
def ComItem.typeOf (x : Str) : ComItem → Option Str
  | .var t n _ => if n = x then some t else none
  | .func _ _ => none

/-- The type of a name in a function with the parameter `p`, which hides a variable of the same name. -/
def ComDecls.typeOf (u : ComDecls) (p : CParam) (x : Str) : Option CTy :=
  if x = p.name then some p.type else (u.file.findSome? (ComItem.typeOf x)).map fun t => ⟨t, false⟩

/-- The value of a name. -/
def ComFrame.value {W : Type} (m : ComFrame W) (p : CParam) (x : Str) : Option CVal := if x = p.name then some m.arg else m.vars x

/-- The value is replaced. -/
def ComFrame.put {W : Type} (m : ComFrame W) (p : CParam) (x : Str) (v : CVal) : ComFrame W :=
  if x = p.name then { m with arg := v } else { m with vars := fun y => if y = x then some v else m.vars y }

/-- `x` is an object, and `a` a pointer to one of the same type. -/
def ComDecls.Points (u : ComDecls) (p : CParam) (a x : Str) : Prop :=
  (u.typeOf p x).any (fun t => !t.pointer) = true ∧ u.typeOf p a = (u.typeOf p x).map fun t => ⟨t.base, true⟩

/-- Both are objects of the same type. -/
def ComDecls.Alike (u : ComDecls) (p : CParam) (a x : Str) : Prop :=
  (u.typeOf p x).any (fun t => !t.pointer) = true ∧ u.typeOf p a = u.typeOf p x

/-- The function is declared in the header of the node, with one parameter of this type, and the file does not declare
something else with its name. -/
def ComDecls.Takes (u : ComDecls) (f : Str) (t : CTy) : Prop :=
  f ∉ u.file.map ComItem.name ∧ ((u.protos.find? fun q => q.name = f).map fun q => q.params.map CParam.type) = some [t]

instance (u : ComDecls) (p : CParam) (a x : Str) : Decidable (u.Points p a x) := inferInstanceAs (Decidable (_ ∧ _))
instance (u : ComDecls) (p : CParam) (a x : Str) : Decidable (u.Alike p a x) := inferInstanceAs (Decidable (_ ∧ _))
instance (u : ComDecls) (f : Str) (t : CTy) : Decidable (u.Takes f t) := inferInstanceAs (Decidable (_ ∧ _))

/-- The value of a condition. Only numbers can be compared with `!=`; `memcmp` compares objects (without padding). -/
def ComCond.holds {W : Type} (u : ComDecls) (p : CParam) (m : ComFrame W) : ComCond → Option Bool
  | .differ a b =>
    if u.Alike p a b then
      match m.value p a, m.value p b with
      | some (.int i), some (.int j) => some (decide (i ≠ j))
      | _, _ => none
    else none
  | .memDiffer a x s =>
    if s = x ∧ u.Points p a x then
      match m.value p a, m.value p x with
      | some (.ptr c), some d => some (decide (c ≠ d))
      | _, _ => none
    else none

/-- A statement without inner statements. `ext` says what a call of a function of the node does: what becomes of the
rest of the world, and of the argument. -/
def ComSimple.exec {W : Type} (ext : Str → W → CVal → Option (W × CVal)) (u : ComDecls) (p : CParam) (m : ComFrame W) :
    ComSimple → Option (ComFrame W)
  | .assign x a => if u.Alike p a x then (m.value p a).map fun v => m.put p x v else none
  | .copy x a s =>
    if s = x ∧ u.Points p a x then
      match m.value p a with
      | some (.ptr c) => some (m.put p x c)
      | _ => none
    else none
  | .call f x true =>
    if f ≠ p.name ∧ (u.typeOf p x).any (fun t => !t.pointer && decide (u.Takes f ⟨t.base, true⟩)) = true then
      match (m.value p x).bind fun c => ext f m.world (.ptr c) with
      | some (w, .ptr c) => some { m.put p x c with world := w }
      | _ => none
    else none
  | .call f x false =>
    if f ≠ p.name ∧ (u.typeOf p x).any (fun t => decide (u.Takes f t)) = true then
      match (m.value p x).bind fun c => ext f m.world c with
      | some (w, .ptr c) => some { m.put p x (.ptr c) with world := w }
      | some (w, _) => some { m with world := w }
      | none => none
    else none

/-- One statement after the other. -/
def execComSimples {W : Type} (ext : Str → W → CVal → Option (W × CVal)) (u : ComDecls) (p : CParam) :
    ComFrame W → List ComSimple → Option (ComFrame W)
  | m, [] => some m
  | m, s :: l => (s.exec ext u p m).bind fun m => execComSimples ext u p m l

/-- A statement. -/
def ComStmt.exec {W : Type} (ext : Str → W → CVal → Option (W × CVal)) (u : ComDecls) (p : CParam) (m : ComFrame W) :
    ComStmt → Option (ComFrame W)
  | .simple s => s.exec ext u p m
  | .cond c body => (c.holds u p m).bind fun b => if b then execComSimples ext u p m body else some m

/-- One statement after the other. -/
def execComStmts {W : Type} (ext : Str → W → CVal → Option (W × CVal)) (u : ComDecls) (p : CParam) :
    ComFrame W → List ComStmt → Option (ComFrame W)
  | m, [] => some m
  | m, s :: l => (s.exec ext u p m).bind fun m => execComStmts ext u p m l

/-- The function with this name. -/
def ComItem.funcNamed (f : Str) : ComItem → Option (CProto × List Str)
  | .func p l => if p.name = f then some (p, l) else none
  | .var _ _ _ => none

/-- Is the value a pointer? -/
def CVal.isPointer : CVal → Bool
  | .ptr _ => true
  | _ => false

/-- A call of a function of the file, which has one parameter. -/
def ComDecls.call {W : Type} (ext : Str → W → CVal → Option (W × CVal)) (u : ComDecls) (f : Str) (m : ComFrame W) :
    Option (ComFrame W) :=
  match u.file.findSome? (ComItem.funcNamed f) with
  | some (⟨_, _, [p]⟩, lines) =>
    if p.type.pointer = m.arg.isPointer then
      (readComStmts .outside (lines.map lexC)).bind fun b => execComStmts ext u p m b
    else none
  | _ => none

/-- A variable with its initializer. -/
def ComItem.initOf (x : Str) : ComItem → Option Str
  | .var _ n i => if n = x then some i else none
  | .func _ _ => none

/-- The variables before the first call; `value` says which object an initializer denotes. -/
def comStart (value : Str → Option CVal) (u : List ComItem) (x : Str) : Option CVal := (u.findSome? (ComItem.initOf x)).bind value

/-! ### The functions of the node -/

/-- An array of the node, and the notifications made. -/
structure NodeWorld where
  buf : Bytes
  notes : List (Nat × Nat × Bool)

/-- A call of a read or write function of the source file of the node, which consists of the items `u`; `array` is the
name of the array it works on. -/
def nodeTextCall (array : Str) (u : List CItem) (f : Str) (w : NodeWorld) (arg : CVal) : Option (NodeWorld × CVal) :=
  ((u.filterMap CItem.function).find? fun x => x.1.name = f).bind fun x =>
    (readCode array x.2).bind fun c => (c.call w.buf arg).map fun m => (⟨m.buf, w.notes ++ m.notes⟩, m.arg)

/-- Calls of functions of the communication layer, each with its argument. -/
def ComDecls.calls {W : Type} (ext : Str → W → CVal → Option (W × CVal)) (u : ComDecls) :
    (Str → Option CVal) × W → List (Str × CVal) → Option ((Str → Option CVal) × W)
  | s, [] => some s
  | s, (f, arg) :: l => (u.call ext f ⟨s.1, arg, s.2⟩).bind fun m => u.calls ext (m.vars, m.world) l

end Apx
