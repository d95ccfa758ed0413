import Verif.Model.Generator
import Verif.Model.PyVal

/-!
The functions `ApxNode_Write_*` and `ApxNode_Read_*` emitted by the code generator
(`genPackUnpackInteger`, `genPackUnpackItem`, `genPackUnpackFunc` of apx/generator.py), as syntax
trees instead of text, and what these statements do when they are executed.

Simplifications.  The emitted text is represented by the constructors below, each with the text it
stands for; indentation is dropped.  The C side: an object is a value of `CVal`; integers are kept as
mathematical integers (a conversion is applied where the text contains a cast); an array decays to its
contents; anything the C standard does not define (access outside an object, a loop that cannot end
because its variable is too small, an access to a member that does not exist, a write to the shared
buffer without the lock) has no result.  `packLE`, `unpackLE`, `memcpy` and the functions
`apx_nodeData_*` belong to libraries outside /repo; they are given their documented meaning:
little-endian store and load of the low-order bytes, copying, and taking and releasing the lock
(`apx_nodeData_outPortDataWriteNotify` releases it, /repo/apx/generator.py:679-690).
-/

namespace Apx

mutual
/-- A C object. A pointer to an array points to its first element. -/
inductive CVal
  | int (n : Int)
  | ints (l : List Int)
  | chars (b : Bytes)
  | struct (fs : CFields)
  | ptr (target : CVal)
/-- The members of a C struct. -/
inductive CFields
  | nil
  | cons (name : Str) (v : CVal) (rest : CFields)
end

deriving instance DecidableEq for CVal, CFields

/-- One step of an lvalue: `*x`, `x->f`, `x.f`, `x[i]`. /repo/apx/generator.py:265,271,333-337,361. -/
inductive CAccess
  | star
  | arrow (f : Str)
  | dot (f : Str)
  | idx
  deriving DecidableEq

/-- `valname`: an lvalue, starting at the argument `val`. -/
abbrev CPath := List CAccess

/-- A place in the buffer: `p[k]` (`*p` is `p[0]`) or `buf[k]`. -/
inductive CLoc
  | rel (k : Int)
  | abs (k : Int)
  deriving DecidableEq

/-- A statement without inner statements. -/
inductive CSimple
  /-- `*p=(uint8_t) v`, `buf[k]=(uint8_t) v` -/
  | storeByte (dst : CLoc) (v : CPath)
  /-- `packLE(dst,(uint32_t) v,(uint8_t) sizeof(T))` -/
  | packLE (dst : CLoc) (v : CPath) (t : IntT)
  /-- `v = (T) *p`, `v = (T) buf[k]` -/
  | loadByte (v : CPath) (t : IntT) (src : CLoc)
  /-- `v = (T) unpackLE(src,(uint8_t) sizeof(T))` -/
  | unpackLE (v : CPath) (t : IntT) (src : CLoc)
  /-- `p++`, `p+=n` -/
  | advance (n : Nat)
  /-- `memcpy(dst,v,n)` -/
  | copyIn (dst : CLoc) (v : CPath) (n : Int)
  /-- `memcpy(v,src,n)` -/
  | copyOut (v : CPath) (src : CLoc) (n : Int)
  /-- `dst='\0'` -/
  | zero (dst : CLoc)
  deriving DecidableEq

/-- A statement; `loop n body` is `for(i=0;i<n;i++) { body }`. -/
inductive CStmt
  | simple (s : CSimple)
  | loop (n : Nat) (body : List CSimple)
  deriving DecidableEq

/-- A statement on the outermost level of a function. -/
inductive CTop
  /-- `apx_nodeData_lockOutPortData(&m_nodeData)` -/
  | lockOut
  /-- `apx_nodeData_lockInPortData(&m_nodeData)` -/
  | lockIn
  /-- `apx_nodeData_unlockInPortData(&m_nodeData)` -/
  | unlockIn
  /-- `p=&buf[k]` -/
  | setP (k : Nat)
  | stmt (s : CStmt)
  /-- `apx_nodeData_outPortDataWriteNotify(&m_nodeData, offset, len, direct)` -/
  | notify (offset len : Nat) (direct : Bool)
  deriving DecidableEq

/-- An emitted function: the width of the type of the loop variable, if there is one, and the
statements. -/
structure CFunc where
  loopBits : Option Nat
  body : List CTop
  deriving DecidableEq

/-- The dictionary `localvar`: is there `bufptr`, and the width of the type of `loopVar`.
/repo/apx/generator.py:328-329,345-356,372. -/
structure CLocals where
  bufptr : Bool
  loopBits : Option Nat
  deriving DecidableEq

/-- `operation`. -/
inductive COp
  | pack
  | unpack
  deriving DecidableEq

/-! ### Emitting -/

/-- The argument `val` of `genPackUnpackItem`: a `C.variable` or a string.
/repo/apx/generator.py:289-294. -/
inductive CName
  | var (pointer : Bool)
  | text (p : CPath)
  deriving DecidableEq

/-- `valname`. /repo/apx/generator.py:289-292. -/
def CName.path : CName → CPath
  | .var _ => []
  | .text p => p

/-- `childName`; the name `None` is printed as such. /repo/apx/generator.py:331-337. -/
def CName.child (sfx : Str) (name : Option Str) : CName → CName
  | .var true => .text [.arrow (name.getD "None".toList ++ sfx)]
  | .var false => .text [.dot (name.getD "None".toList ++ sfx)]
  | .text p => .text (p ++ [.dot (name.getD "None".toList)])

/-- The type of the emitted cast. /repo/apx/generator.py:241-253. -/
def castType : Elem → Py IntT
  | .prim .u8 _ _ _ => .ok .u8
  | .prim .s8 _ _ _ => .ok .s8
  | .prim .u16 _ _ _ => .ok .u16
  | .prim .s16 _ _ _ => .ok .s16
  | .prim .u32 _ _ _ => .ok .u32
  | .prim .s32 _ _ _ => .ok .s32
  | _ => .error .notImplemented

/-- The statements for one integer. /repo/apx/generator.py:254-278. -/
def emitInteger (op : COp) (bufptr : Bool) (v : CPath) (t : IntT) (offset : Nat) : List CSimple :=
  if bufptr then
    if t.size = 1 then
      match op with
      | .pack => [.storeByte (.rel 0) v, .advance 1]
      | .unpack => [.loadByte v t (.rel 0), .advance 1]
    else
      match op with
      | .pack => [.packLE (.rel 0) v t, .advance t.size]
      | .unpack => [.unpackLE v t (.rel 0), .advance t.size]
  else
    if t.size = 1 then
      match op with
      | .pack => [.storeByte (.abs offset) v]
      | .unpack => [.loadByte (v ++ [.star]) t (.abs offset)]
    else
      match op with
      | .pack => [.packLE (.abs offset) v t]
      | .unpack => [.unpackLE (v ++ [.star]) t (.abs offset)]

/-- `genPackUnpackInteger`. /repo/apx/generator.py:239-279. -/
def genInteger (op : COp) (bufptr : Bool) (v : CPath) (e : Elem) (offset : Nat) :
    Py (List CSimple × Nat) := do
  let d ← e.resolveDataElement
  let t ← castType d
  .ok (emitInteger op bufptr v t offset, t.size)

/-- The statements for a string of `n` bytes (`strNullTerminator` is always set, /repo/apx/base.py:426).
/repo/apx/generator.py:297-325. -/
def emitString (op : COp) (bufptr : Bool) (v : CPath) (n offset : Nat) : List CSimple :=
  if bufptr then
    match op with
    | .pack => [.copyIn (.rel 0) v ((n : Int) - 1), .zero (.rel ((n : Int) - 1)), .advance n]
    | .unpack => [.copyOut v (.rel 0) ((n : Int) - 1), .advance n]
  else
    match op with
    | .pack => [.copyIn (.abs offset) v ((n : Int) - 1), .zero (.abs ((offset : Int) + ((n : Int) - 1)))]
    | .unpack => [.copyOut v (.abs offset) ((n : Int) - 1)]

/-- The type for a loop variable. /repo/apx/generator.py:345-350. -/
def loopWidth (n : Nat) : Nat :=
  if n < 256 then 8 else if n < 65536 then 16 else 32

/-- The type of the loop variable after one more loop. /repo/apx/generator.py:351-356. -/
def widenLoop (w : Nat) : Option Nat → Nat
  | none => w
  | some b => if b = 8 ∧ (w = 16 ∨ w = 32) then w else if b = 16 ∧ w = 32 then w else b

/-- The loop over an array; `arrayLen` of a reference is `None`, which cannot be compared.
/repo/apx/generator.py:343-365. -/
def genArray (op : COp) (lv : CLocals) (v : CPath) (e : Elem) (offset : Nat) :
    Py (List CStmt × Nat × CLocals) :=
  match e.arrayLen with
  | none => .error .typeError
  | some n => do
    let r ← genInteger op true (v ++ [.idx]) e offset
    .ok ([.loop n r.1], r.2 * n, ⟨true, some (widenLoop (loopWidth n) lv.loopBits)⟩)

/-- The last branch of the complex types: an array, or nothing at all. /repo/apx/generator.py:343. -/
def genOther (op : COp) (lv : CLocals) (v : CPath) (e : Elem) (offset : Nat) :
    Py (List CStmt × Nat × CLocals) := do
  let a ← e.isArray
  if a then genArray op lv v e offset else .ok ([], 0, lv)

/-- The branch for integers. /repo/apx/generator.py:366. -/
def genPlain (op : COp) (lv : CLocals) (v : CPath) (e : Elem) (offset : Nat) :
    Py (List CStmt × Nat × CLocals) := do
  let r ← genInteger op lv.bufptr v e offset
  .ok (r.1.map .simple, r.2, lv)

mutual
/-- `genPackUnpackItem` with a data element. /repo/apx/generator.py:288-367. -/
def genElem (sfx : Str) (op : COp) (lv : CLocals) (offset : Nat) (val : CName) (e : Elem) :
    Py (List CStmt × Nat × CLocals) :=
  match e.isComplexType with
  | .error x => .error x
  | .ok false => genPlain op lv val.path e offset
  | .ok true =>
    match e with
    | .prim .str _ _ (some n) => .ok ((emitString op lv.bufptr val.path n offset).map .simple, n, lv)
    | .record fs _ => genFields sfx op { lv with bufptr := true } offset val fs
    | e => genOther op lv val.path e offset
/-- The loop over the children of a record. /repo/apx/generator.py:330-342. -/
def genFields (sfx : Str) (op : COp) (lv : CLocals) (offset : Nat) (val : CName) :
    Fields → Py (List CStmt × Nat × CLocals)
  | .nil => .ok ([], 0, lv)
  | .cons name e rest => do
    let r ← genElem sfx op lv offset (val.child sfx name) e
    let q ← genFields sfx op r.2.2 (offset + r.2.1) val rest
    .ok (r.1 ++ q.1, r.2.1 + q.2.1, q.2.2)
end

/-- The statements before the code. /repo/apx/generator.py:386-392. -/
def funcHead (op : COp) (bufptr : Bool) (offset len : Nat) : List CTop :=
  (match op with
    | .pack => [.lockOut]
    | .unpack => if len > 1 then [.lockIn] else []) ++
  (if bufptr then [.setP offset] else [])

/-- The statements after the code. /repo/apx/generator.py:394-400. -/
def funcTail (op : COp) (offset len : Nat) (direct : Bool) : List CTop :=
  match op with
  | .pack => [.notify offset len direct]
  | .unpack => if len > 1 then [.unlockIn] else []

/-- `genPackUnpackFunc`; `pointer` tells whether the argument is a pointer, `hasBuf` whether there is a
buffer (if not, `buf.name` raises). The result is the function and `packLen`.
/repo/apx/generator.py:281-283,369-403. -/
def genFunc (types : List NamedType) (sfx : Str) (op : COp) (pointer hasBuf : Bool) (offset : Nat)
    (direct : Bool) (e : Elem) : Py (CFunc × Nat) := do
  let e ← e.resolveType types
  let d ← e.resolveDataElement
  let r ← genElem sfx op ⟨false, none⟩ offset (.var pointer) d
  if hasBuf then
    .ok (⟨r.2.2.loopBits, funcHead op r.2.2.bufptr offset r.2.1 ++
      (r.1.map CTop.stmt ++ funcTail op offset r.2.1 direct)⟩, r.2.1)
  else .error .attributeError

/-- The write function of a provide port: offset and type are those of the last signal with the name of
the port. /repo/apx/generator.py:206-212,620-626. -/
def writeFunc (g : Generated) (sfx : Str) (direct : List Str) (p : Port) : Py (CFunc × Nat) :=
  match signalNamed g.provide p.name with
  | none => .error .keyError
  | some s => do
    let ptr ← s.elem.isComplexType
    genFunc g.node.named sfx .pack ptr (decide (0 < g.outLen)) s.offset (decide (p.name ∈ direct)) s.elem

/-- The read function of a require port. /repo/apx/generator.py:184-190,613-619. -/
def readFunc (g : Generated) (sfx : Str) (p : Port) : Py (CFunc × Nat) :=
  match signalNamed g.require p.name with
  | none => .error .keyError
  | some s => genFunc g.node.named sfx .unpack true (decide (0 < g.inLen)) s.offset false s.elem

/-! ### Executing -/

/-- Access to a member. -/
def CFields.get (name : Str) : CFields → Option CVal
  | .nil => none
  | .cons n v r => if n = name then some v else r.get name

/-- Change of a member. -/
def CFields.update (name : Str) (f : CVal → Option CVal) : CFields → Option CFields
  | .nil => none
  | .cons n v r =>
    if n = name then (f v).map fun v => .cons n v r else (r.update name f).map fun r => .cons n v r

/-- Value of an lvalue; `i` is the loop variable. -/
def CVal.get (i : Nat) : CPath → CVal → Option CVal
  | [], c => some c
  | .star :: p, .ptr t => t.get i p
  | .arrow f :: p, .ptr (.struct fs) => (fs.get f).bind (CVal.get i p)
  | .dot f :: p, .struct fs => (fs.get f).bind (CVal.get i p)
  | .idx :: p, .ints l => l[i]?.bind fun n => CVal.get i p (.int n)
  | .idx :: p, .ptr (.ints l) => l[i]?.bind fun n => CVal.get i p (.int n)
  | _, _ => none

/-- Storing an integer into an element of an array. -/
def setInt (l : List Int) (i : Nat) : CVal → Option (List Int)
  | .int n => if i < l.length then some (l.set i n) else none
  | _ => none

/-- Change of the object an lvalue denotes. -/
def CVal.update (i : Nat) (f : CVal → Option CVal) : CPath → CVal → Option CVal
  | [], c => f c
  | .star :: p, .ptr t => (t.update i f p).map .ptr
  | .arrow n :: p, .ptr (.struct fs) => (fs.update n (CVal.update i f p)).map fun fs => .ptr (.struct fs)
  | .dot n :: p, .struct fs => (fs.update n (CVal.update i f p)).map .struct
  | .idx :: p, .ints l =>
    (l[i]?.bind fun n => (CVal.update i f p (.int n)).bind (setInt l i)).map .ints
  | .idx :: p, .ptr (.ints l) =>
    (l[i]?.bind fun n => (CVal.update i f p (.int n)).bind (setInt l i)).map fun l => .ptr (.ints l)
  | _, _ => none

/-- State of the machine: the port data buffer, the pointer `p` (an index into it), the argument, the
lock, the number of bytes read without the lock, and the notifications. -/
structure CMach where
  buf : Bytes
  p : Option Nat
  arg : CVal
  locked : Bool
  bare : Nat
  notes : List (Nat × Nat × Bool)
  deriving DecidableEq

/-- A nonnegative index. -/
def asIndex (k : Int) : Option Nat := if 0 ≤ k then some k.toNat else none

/-- Index of a place in the buffer. -/
def CMach.addr (m : CMach) : CLoc → Option Nat
  | .rel k => m.p.bind fun p => asIndex (p + k)
  | .abs k => asIndex k

/-- Writing into the buffer. -/
def CMach.write (m : CMach) (bs : Bytes) (a : Nat) : Option CMach :=
  if m.locked = true ∧ a + bs.length ≤ m.buf.length then
    some { m with buf := m.buf.take a ++ bs ++ m.buf.drop (a + bs.length) }
  else none

/-- Reading from the buffer: the bytes, and the machine afterwards. -/
def CMach.read (m : CMach) (n a : Nat) : Option (Bytes × CMach) :=
  if a + n ≤ m.buf.length then
    some ((m.buf.drop a).take n, { m with bare := if m.locked then m.bare else m.bare + n })
  else none

/-- The value of an integer expression. -/
def CVal.asInt : CVal → Option Int
  | .int n => some n
  | _ => none

/-- What `memcpy` sees of its source. -/
def CVal.asChars : CVal → Option Bytes
  | .chars b => some b
  | .ptr (.chars b) => some b
  | _ => none

/-- Conversion of an unsigned integer to an integer type. -/
def castInt (t : IntT) (x : Nat) : Int :=
  if t.signed = true ∧ 256 ^ t.size ≤ 2 * (x % 256 ^ t.size) then (x % 256 ^ t.size : Nat) - 256 ^ t.size
  else (x % 256 ^ t.size : Nat)

/-- Assigning an integer. -/
def assignInt (n : Int) : CVal → Option CVal
  | .int _ => some (.int n)
  | _ => none

/-- What `memcpy` does to its destination. -/
def assignChars (bs : Bytes) : CVal → Option CVal
  | .chars b => if bs.length ≤ b.length then some (.chars (bs ++ b.drop bs.length)) else none
  | .ptr (.chars b) => if bs.length ≤ b.length then some (.ptr (.chars (bs ++ b.drop bs.length))) else none
  | _ => none

/-- Assigning to an lvalue. -/
def CMach.assign (m : CMach) (i : Nat) (v : CPath) (f : CVal → Option CVal) : Option CMach :=
  (m.arg.update i f v).map fun c => { m with arg := c }

/-- Execution of a simple statement. -/
def CSimple.run (i : Nat) (m : CMach) : CSimple → Option CMach
  | .storeByte dst v => do
    let n ← (← m.arg.get i v).asInt
    m.write [UInt8.ofNat (n % 256).toNat] (← m.addr dst)
  | .packLE dst v t => do
    let n ← (← m.arg.get i v).asInt
    m.write (leBytes t.size (n % 4294967296).toNat) (← m.addr dst)
  | .loadByte v t src => do
    let r ← m.read 1 (← m.addr src)
    r.2.assign i v (assignInt (castInt t (leNat r.1)))
  | .unpackLE v t src => do
    let r ← m.read t.size (← m.addr src)
    r.2.assign i v (assignInt (castInt t (leNat r.1)))
  | .advance n => do
    let p ← m.p
    if p + n ≤ m.buf.length then some { m with p := some (p + n) } else none
  | .copyIn dst v n => do
    let b ← (← m.arg.get i v).asChars
    let k ← asIndex n
    if k ≤ b.length then m.write (b.take k) (← m.addr dst) else none
  | .copyOut v src n => do
    let k ← asIndex n
    let r ← m.read k (← m.addr src)
    r.2.assign i v (assignChars r.1)
  | .zero dst => do
    m.write [0] (← m.addr dst)

/-- Execution of simple statements in order. -/
def runSimples (i : Nat) : CMach → List CSimple → Option CMach
  | m, [] => some m
  | m, s :: ss => (s.run i m).bind fun m => runSimples i m ss

/-- The remaining `k` rounds of a loop, the loop variable being `i`. -/
def runRounds (body : List CSimple) : Nat → Nat → CMach → Option CMach
  | 0, _, m => some m
  | k + 1, i, m => (runSimples i m body).bind (runRounds body k (i + 1))

/-- Execution of a statement; a loop only ends if its variable can reach the bound. -/
def CStmt.run (bits : Option Nat) (m : CMach) : CStmt → Option CMach
  | .simple s => s.run 0 m
  | .loop n body => bits.bind fun b => if n < 2 ^ b then runRounds body n 0 m else none

/-- Execution of a statement of the outermost level. -/
def CTop.run (bits : Option Nat) (m : CMach) : CTop → Option CMach
  | .lockOut => if m.locked then none else some { m with locked := true }
  | .lockIn => if m.locked then none else some { m with locked := true }
  | .unlockIn => if m.locked then some { m with locked := false } else none
  | .setP k => if k ≤ m.buf.length then some { m with p := some k } else none
  | .stmt s => s.run bits m
  | .notify o n d => if m.locked then some { m with locked := false, notes := m.notes ++ [(o, n, d)] } else none

/-- Execution of statements in order. -/
def runTops (bits : Option Nat) : CMach → List CTop → Option CMach
  | m, [] => some m
  | m, s :: ss => (s.run bits m).bind fun m => runTops bits m ss

/-- A call of a function. It may read one byte without the lock, but not more. -/
def CFunc.call (f : CFunc) (buf : Bytes) (arg : CVal) : Option CMach :=
  (runTops f.loopBits ⟨buf, none, arg, false, 0, []⟩ f.body).bind fun m =>
    if m.bare ≤ 1 ∧ m.locked = false then some m else none

end Apx
