import Verif.Spec.GenCode
import Verif.Proofs.VmProg

/-! Lemmas about the emitted C code (C67). -/

namespace Apx

theorem CVal.get_append (i : Nat) (p q : CPath) (c : CVal) :
    c.get i (p ++ q) = (c.get i p).bind (CVal.get i q) := by
  induction p generalizing c with
  | nil => simp [CVal.get]
  | cons a p ih =>
    cases a with
    | star =>
      cases c <;> simp [CVal.get, ih]
    | arrow f =>
      cases c with
      | ptr t =>
        cases t <;> simp [CVal.get]
        rename_i fs
        cases fs.get f <;> simp [ih]
      | _ => simp [CVal.get]
    | dot f =>
      cases c with
      | struct fs =>
        simp [CVal.get]
        cases fs.get f <;> simp [ih]
      | _ => simp [CVal.get]
    | idx =>
      cases c with
      | ints l =>
        simp [CVal.get]
        cases l[i]? <;> simp [ih]
      | ptr t =>
        cases t <;> simp [CVal.get]
        rename_i l
        cases l[i]? <;> simp [ih]
      | _ => simp [CVal.get]

theorem CVal.update_append (i : Nat) (f : CVal → Option CVal) (p q : CPath) (c : CVal) :
    c.update i f (p ++ q) = c.update i (fun x => x.update i f q) p := by
  induction p generalizing c with
  | nil => simp [CVal.update]
  | cons a p ih =>
    have ih' : CVal.update i f (p ++ q) = CVal.update i (fun x => x.update i f q) p := funext ih
    cases a with
    | star =>
      cases c <;> simp [CVal.update, ih]
    | arrow f =>
      cases c with
      | ptr t =>
        cases t <;> simp [CVal.update, ih']
      | _ => simp [CVal.update]
    | dot f =>
      cases c with
      | struct fs => simp [CVal.update, ih']
      | _ => simp [CVal.update]
    | idx =>
      cases c with
      | ints l => simp [CVal.update, ih]
      | ptr t =>
        cases t <;> simp [CVal.update, ih]
      | _ => simp [CVal.update]

theorem runTops_append (bits : Option Nat) (a b : List CTop) (m : CMach) :
    runTops bits m (a ++ b) = (runTops bits m a).bind fun m => runTops bits m b := by
  induction a generalizing m with
  | nil => simp [runTops]
  | cons s a ih =>
    simp only [List.cons_append, runTops]
    cases s.run bits m with
    | none => rfl
    | some m => simp [ih]

theorem runTops_simple (bits : Option Nat) (l : List CSimple) (m : CMach) :
    runTops bits m ((l.map CStmt.simple).map CTop.stmt) = runSimples 0 m l := by
  induction l generalizing m with
  | nil => simp [runTops, runSimples]
  | cons s l ih =>
    simp only [List.map_cons, runTops, runSimples, CTop.run, CStmt.run]
    cases s.run 0 m with
    | none => rfl
    | some m => simp [← ih]

theorem runTops_loop (bits : Option Nat) (n : Nat) (body : List CSimple) (m : CMach) (b : Nat)
    (hb : bits = some b) (hn : n < 2 ^ b) :
    runTops bits m ([CStmt.loop n body].map CTop.stmt) = runRounds body n 0 m := by
  subst hb
  simp only [List.map_cons, List.map_nil, runTops, CTop.run, CStmt.run, Option.bind_some]
  rw [if_pos hn]
  cases runRounds body n 0 m <;> simp

/-! ### Integers -/

theorem castInt_unpackInt (t : IntT) (bs : Bytes) (h : bs.length = t.size) :
    castInt t (leNat bs) = unpackInt t bs := by
  have hlt := leNat_lt bs
  rw [h] at hlt
  unfold castInt unpackInt
  rw [Nat.mod_eq_of_lt hlt]
  obtain ⟨H, hN, hZ⟩ := half t
  cases t.signed with
  | false => simp
  | true =>
    simp only [true_and, if_true]
    rw [hN]
    rw [hN] at hlt
    by_cases hh : leNat bs < H
    · rw [if_neg (by omega), if_pos (by omega)]
    · rw [if_pos (by omega), if_neg (by omega)]

theorem packLE_bytes (t : IntT) (n : Int) :
    leBytes t.size (n % 4294967296).toNat = littleEndian t.size n := by
  have h0 : 0 ≤ n % 4294967296 := Int.emod_nonneg _ (by omega)
  rw [← littleEndian_nat, Int.toNat_of_nonneg h0]
  have key : ∀ k q : Int, n = n % 4294967296 + 256 ^ t.size * q →
      littleEndian t.size (n % 4294967296) = littleEndian t.size n := by
    intro k q hq
    have := littleEndian_period t.size (n % 4294967296) q
    rw [← hq] at this
    exact this.symm
  cases t
  · exact key 0 (16777216 * (n / 4294967296)) (by simp only [IntT.size]; omega)
  · exact key 0 (65536 * (n / 4294967296)) (by simp only [IntT.size]; omega)
  · exact key 0 (n / 4294967296) (by simp only [IntT.size]; omega)
  · exact key 0 (16777216 * (n / 4294967296)) (by simp only [IntT.size]; omega)
  · exact key 0 (65536 * (n / 4294967296)) (by simp only [IntT.size]; omega)
  · exact key 0 (n / 4294967296) (by simp only [IntT.size]; omega)

theorem storeByte_bytes (n : Int) : [UInt8.ofNat (n % 256).toNat] = littleEndian 1 n := by
  rw [littleEndian_succ]; rfl

/-- Machine after storing bytes at the pointer. -/
theorem write_ok (m : CMach) (bs : Bytes) (a : Nat) (hl : m.locked = true) (hb : a + bs.length ≤ m.buf.length) :
    m.write bs a = some { m with buf := put m.buf a bs } := by
  unfold CMach.write
  rw [if_pos ⟨hl, hb⟩]; rfl

theorem read_ok (m : CMach) (n a : Nat) (hb : a + n ≤ m.buf.length) :
    m.read n a = some ((m.buf.drop a).take n, { m with bare := if m.locked then m.bare else m.bare + n }) := by
  unfold CMach.read
  rw [if_pos hb]

theorem addr_rel (m : CMach) (a : Nat) (hp : m.p = some a) (k : Nat) : m.addr (.rel k) = some (a + k) := by
  simp only [CMach.addr, hp, Option.bind_some, asIndex]
  rw [if_pos (by omega)]
  congr 1

theorem addr_abs (m : CMach) (k : Nat) : m.addr (.abs k) = some k := by
  simp [CMach.addr, asIndex]

theorem advance_ok (i : Nat) (m : CMach) (a n : Nat) (hp : m.p = some a) (hb : a + n ≤ m.buf.length) :
    (CSimple.advance n).run i m = some { m with p := some (a + n) } := by
  simp [CSimple.run, hp, hb]

theorem packRel_ok (i : Nat) (m : CMach) (v : CPath) (t : IntT) (off a : Nat) (n : Int) (hl : m.locked = true)
    (hp : m.p = some a) (hv : m.arg.get i v = some (.int n)) (hb : a + t.size ≤ m.buf.length) :
    runSimples i m (emitInteger .pack true v t off) =
      some { m with buf := put m.buf a (littleEndian t.size n), p := some (a + t.size) } := by
  have ha : m.addr (.rel 0) = some a := by simpa using addr_rel m a hp 0
  have hput : (put m.buf a (littleEndian t.size n)).length = m.buf.length := put_length _ _ _ (by simpa using hb)
  unfold emitInteger
  rw [if_pos rfl]
  split
  · rename_i h1
    rw [h1] at hb hput ⊢
    have e1 : (CSimple.storeByte (.rel 0) v).run i m = some { m with buf := put m.buf a (littleEndian 1 n) } := by
      simp only [CSimple.run, hv, ha, CVal.asInt, Option.bind_eq_bind, Option.bind_some]
      rw [write_ok m _ _ hl (by simpa using hb), storeByte_bytes]
    simp only [runSimples, e1, Option.bind_some]
    rw [advance_ok i { m with buf := put m.buf a (littleEndian 1 n) } a 1 hp (by simp only [hput]; exact hb)]
    rfl
  · have e1 : (CSimple.packLE (.rel 0) v t).run i m = some { m with buf := put m.buf a (littleEndian t.size n) } := by
      simp only [CSimple.run, hv, ha, CVal.asInt, Option.bind_eq_bind, Option.bind_some]
      rw [packLE_bytes, write_ok m _ _ hl (by simpa using hb)]
    simp only [runSimples, e1, Option.bind_some]
    rw [advance_ok i { m with buf := put m.buf a (littleEndian t.size n) } a t.size hp (by simp only [hput]; exact hb)]
    rfl

theorem packAbs_ok (i : Nat) (m : CMach) (v : CPath) (t : IntT) (off : Nat) (n : Int) (hl : m.locked = true)
    (hv : m.arg.get i v = some (.int n)) (hb : off + t.size ≤ m.buf.length) :
    runSimples i m (emitInteger .pack false v t off) =
      some { m with buf := put m.buf off (littleEndian t.size n) } := by
  have ha : m.addr (.abs off) = some off := addr_abs m off
  unfold emitInteger
  rw [if_neg (by simp)]
  split
  · rename_i h1
    rw [h1] at hb ⊢
    have e1 : (CSimple.storeByte (.abs off) v).run i m = some { m with buf := put m.buf off (littleEndian 1 n) } := by
      simp only [CSimple.run, hv, ha, CVal.asInt, Option.bind_eq_bind, Option.bind_some]
      rw [write_ok m _ _ hl (by simpa using hb), storeByte_bytes]
    simp only [runSimples, e1, Option.bind_some]
  · have e1 : (CSimple.packLE (.abs off) v t).run i m = some { m with buf := put m.buf off (littleEndian t.size n) } := by
      simp only [CSimple.run, hv, ha, CVal.asInt, Option.bind_eq_bind, Option.bind_some]
      rw [packLE_bytes, write_ok m _ _ hl (by simpa using hb)]
    simp only [runSimples, e1, Option.bind_some]

/-- The buffer holds `bs` at `a`. -/
theorem holds_read (m : CMach) (a : Nat) (bs : Bytes) (h : Holds m.buf a bs) :
    m.read bs.length a = some (bs, { m with bare := if m.locked then m.bare else m.bare + bs.length }) := by
  rw [read_ok m _ _ h.1, h.2]

theorem loadInt (t : IntT) (n : Int) (hn : t.InRange n) : castInt t (leNat (littleEndian t.size n)) = n := by
  rw [castInt_unpackInt _ _ (by simp), ← width_eq, unpackInt_littleEndian t n hn]

theorem holds_readInt (m : CMach) (a : Nat) (t : IntT) (n : Int) (h : Holds m.buf a (littleEndian t.size n)) :
    m.read t.size a =
      some (littleEndian t.size n, { m with bare := if m.locked then m.bare else m.bare + t.size }) := by
  have := holds_read m a _ h
  rw [littleEndian_length] at this
  exact this

/-- Reading an integer through the pointer; `A` is the argument as a function of the object the lvalue
denotes. -/
theorem unpackRel_ok (i : Nat) (m : CMach) (v : CPath) (t : IntT) (off a : Nat) (n : Int) (c : CVal)
    (hp : m.p = some a) (hn : t.InRange n)
    (hv : m.arg.update i (assignInt n) v = some c) (hb : Holds m.buf a (littleEndian t.size n)) :
    runSimples i m (emitInteger .unpack true v t off) =
      some { m with p := some (a + t.size), arg := c, bare := if m.locked then m.bare else m.bare + t.size } := by
  have ha : m.addr (.rel 0) = some a := by simpa using addr_rel m a hp 0
  have hlen : a + t.size ≤ m.buf.length := by simpa using hb.1
  have hr := holds_readInt m a t n hb
  unfold emitInteger
  rw [if_pos rfl]
  let m1 : CMach := { m with arg := c, bare := if m.locked then m.bare else m.bare + t.size }
  split
  · rename_i h1
    rw [h1] at hr
    have e1 : (CSimple.loadByte v t (.rel 0)).run i m = some m1 := by
      simp only [CSimple.run, ha, Option.bind_eq_bind, Option.bind_some, hr]
      rw [← h1, loadInt t n hn]
      simp [CMach.assign, hv, m1]
    simp only [runSimples, e1, Option.bind_some]
    rw [advance_ok i m1 a 1 hp (by rw [h1] at hlen; exact hlen), h1]
    simp [m1, h1]
  · have e1 : (CSimple.unpackLE v t (.rel 0)).run i m = some m1 := by
      simp only [CSimple.run, ha, Option.bind_eq_bind, Option.bind_some, hr]
      rw [loadInt t n hn]
      simp [CMach.assign, hv, m1]
    simp only [runSimples, e1, Option.bind_some]
    rw [advance_ok i m1 a t.size hp hlen]
    rfl

/-- Reading `len` bytes leads from `b` to `b'` bytes read without the lock. -/
def BareOk (locked : Bool) (b b' len : Nat) : Prop := (locked = true → b' = b) ∧ b' ≤ b + len

theorem BareOk.refl (locked : Bool) (b : Nat) : BareOk locked b b 0 := ⟨fun _ => rfl, Nat.le_refl _⟩

theorem BareOk.trans {locked : Bool} {a b c l k : Nat} (h1 : BareOk locked a b l) (h2 : BareOk locked b c k) :
    BareOk locked a c (l + k) :=
  ⟨fun h => (h2.1 h).trans (h1.1 h), by have := h1.2; have := h2.2; omega⟩

theorem BareOk.ite (locked : Bool) (b k len : Nat) (h : k ≤ len) : BareOk locked b (if locked then b else b + k) len := by
  cases locked
  · exact ⟨by simp, by simp; omega⟩
  · exact ⟨fun _ => rfl, by simp⟩

theorem unpackAbs_ok (i : Nat) (m : CMach) (v : CPath) (t : IntT) (off : Nat) (n : Int) (c : CVal)
    (hn : t.InRange n) (hv : m.arg.update i (assignInt n) (v ++ [.star]) = some c)
    (hb : Holds m.buf off (littleEndian t.size n)) :
    runSimples i m (emitInteger .unpack false v t off) =
      some { m with arg := c, bare := if m.locked then m.bare else m.bare + t.size } := by
  have ha : m.addr (.abs off) = some off := addr_abs m off
  unfold emitInteger
  rw [if_neg (by simp)]
  have hr := holds_readInt m off t n hb
  split
  · rename_i h1
    rw [h1] at hr
    have e1 : (CSimple.loadByte (v ++ [.star]) t (.abs off)).run i m =
        some { m with arg := c, bare := if m.locked then m.bare else m.bare + t.size } := by
      simp only [CSimple.run, ha, Option.bind_eq_bind, Option.bind_some, hr]
      rw [← h1, loadInt t n hn]
      simp [CMach.assign, hv]
    simp only [runSimples, e1, Option.bind_some]
  · have e1 : (CSimple.unpackLE (v ++ [.star]) t (.abs off)).run i m =
        some { m with arg := c, bare := if m.locked then m.bare else m.bare + t.size } := by
      simp only [CSimple.run, ha, Option.bind_eq_bind, Option.bind_some, hr]
      rw [loadInt t n hn]
      simp [CMach.assign, hv]
    simp only [runSimples, e1, Option.bind_some]

/-! ### Arrays -/

/-- Concatenated bytes of integers. -/
def intsBytes (t : IntT) (l : List Int) : Bytes := (l.map (littleEndian t.size)).flatten

theorem intsBytes_length (t : IntT) (l : List Int) : (intsBytes t l).length = t.size * l.length := by
  induction l with
  | nil => simp [intsBytes]
  | cons n l ih =>
    simp only [intsBytes, List.map_cons, List.flatten_cons, List.length_append, littleEndian_length,
      List.length_cons] at ih ⊢
    rw [ih, Nat.mul_succ]; omega

theorem intsLayout_ints (t : IntT) (l : List Int) (h : ∀ i ∈ l, t.InRange i) :
    intsLayout t (l.map .int) = some (intsBytes t l) := by
  induction l with
  | nil => rfl
  | cons n l ih =>
    have h1 := h n (by simp)
    have h2 := ih fun i hi => h i (by simp [hi])
    simp only [List.map_cons, intsLayout, h2, intLayout, if_pos h1, width_eq]
    rfl

theorem packRounds_ok (v : CPath) (t : IntT) (off : Nat) (l : List Int) :
    ∀ (r pre : List Int) (m : CMach) (a : Nat), l = pre ++ r → m.locked = true → m.p = some a →
      (∀ i, m.arg.get i v = l[i]?.map .int) → a + (intsBytes t r).length ≤ m.buf.length →
      runRounds (emitInteger .pack true v t off) r.length pre.length m =
        some { m with buf := put m.buf a (intsBytes t r), p := some (a + (intsBytes t r).length) } := by
  intro r
  induction r with
  | nil =>
    intro pre m a _ _ hp _ _
    simp [runRounds, intsBytes, put_nil, ← hp]
  | cons n r ih =>
    intro pre m a hl hlk hp hv hb
    have hlen : (intsBytes t (n :: r)).length = t.size + (intsBytes t r).length := by
      rw [intsBytes_length, intsBytes_length, List.length_cons, Nat.mul_succ]; omega
    rw [hlen] at hb
    have hn : m.arg.get pre.length v = some (.int n) := by
      rw [hv, hl]; simp
    have h1 := packRel_ok pre.length m v t off a n hlk hp hn (by omega)
    have hput : (put m.buf a (littleEndian t.size n)).length = m.buf.length := put_length _ _ _ (by simp; omega)
    simp only [List.length_cons, runRounds, h1, Option.bind_some]
    have h2 := ih (pre ++ [n]) { m with buf := put m.buf a (littleEndian t.size n), p := some (a + t.size) }
      (a + t.size) (by simp [hl]) hlk rfl hv (by simp only [hput]; omega)
    rw [List.length_append, List.length_singleton] at h2
    rw [h2]
    have hpp := put_put m.buf a (littleEndian t.size n) (intsBytes t r) (by simp; omega)
    rw [littleEndian_length] at hpp
    have hcons : intsBytes t (n :: r) = littleEndian t.size n ++ intsBytes t r := by simp [intsBytes]
    rw [hcons, ← hpp, List.length_append, littleEndian_length]
    simp only [Nat.add_assoc]

theorem unpackRounds_ok (v : CPath) (t : IntT) (off : Nat) (A : List Int → CVal)
    (hA : ∀ i f l, (A l).update i f v = (l[i]?.bind fun n => (f (.int n)).bind (setInt l i)).map A) :
    ∀ (r r0 pre : List Int) (m : CMach) (a : Nat), r0.length = r.length → m.arg = A (pre ++ r0) →
      m.p = some a → (∀ i ∈ r, t.InRange i) → Holds m.buf a (intsBytes t r) →
      ∃ b, BareOk m.locked m.bare b (intsBytes t r).length ∧
      runRounds (emitInteger .unpack true v t off) r.length pre.length m =
        some { m with arg := A (pre ++ r), p := some (a + (intsBytes t r).length), bare := b } := by
  intro r
  induction r with
  | nil =>
    intro r0 pre m a hr0 harg hp _ _
    have : r0 = [] := List.length_eq_zero_iff.mp hr0
    subst this
    rw [List.append_nil] at harg ⊢
    exact ⟨m.bare, BareOk.refl _ _, by simp [runRounds, intsBytes, ← hp, ← harg]⟩
  | cons n r ih =>
    intro r0 pre m a hr0 harg hp hr hb
    cases r0 with
    | nil => simp at hr0
    | cons n0 r0 =>
      have hcons : intsBytes t (n :: r) = littleEndian t.size n ++ intsBytes t r := by simp [intsBytes]
      rw [hcons] at hb ⊢
      obtain ⟨hb1, hb2⟩ := hb.append
      rw [littleEndian_length] at hb2
      have hupd : m.arg.update pre.length (assignInt n) v = some (A (pre ++ [n] ++ r0)) := by
        rw [harg, hA]
        simp [assignInt, setInt]
      have h1 := unpackRel_ok pre.length m v t off a n _ hp (hr n (by simp)) hupd hb1
      simp only [List.length_cons, runRounds, h1, Option.bind_some]
      obtain ⟨b, hbb, h2⟩ := ih r0 (pre ++ [n]) { m with p := some (a + t.size), arg := A (pre ++ [n] ++ r0), bare := if m.locked then m.bare else m.bare + t.size }
        (a + t.size) (by simpa using hr0) rfl rfl (fun i hi => hr i (by simp [hi])) hb2
      rw [List.length_append, List.length_singleton] at h2
      refine ⟨b, ?_, ?_⟩
      · rw [List.length_append, littleEndian_length]
        exact (BareOk.ite m.locked m.bare t.size t.size (Nat.le_refl _)).trans hbb
      · rw [h2]
        simp only [List.append_assoc, List.singleton_append, List.length_append, littleEndian_length, Nat.add_assoc]

/-! ### Strings -/

theorem textLayout_length (n : Nat) (s : Str) : (textLayout n s).length = n := by
  rw [textLayout_eq, packS_length]

theorem textLayout_last (n : Nat) (s : Str) (h : (utf8Encode s).length < n) :
    textLayout n s = (textLayout n s).take (n - 1) ++ [0] := by
  unfold textLayout
  rw [List.take_of_length_le (Nat.le_of_lt h)]
  have h1 : n - (utf8Encode s).length = (n - 1 - (utf8Encode s).length) + 1 := by omega
  rw [h1, List.replicate_succ', ← List.append_assoc, List.take_append_of_le_length (by simp; omega),
    List.take_of_length_le (by simp; omega)]

theorem packStrRel_ok (m : CMach) (v : CPath) (n off a : Nat) (s : Str) (c : CVal)
    (hl : m.locked = true) (hp : m.p = some a) (hv : m.arg.get 0 v = some c) (hc : c.asChars = some (textLayout n s))
    (hs : (utf8Encode s).length < n) (hb : a + n ≤ m.buf.length) :
    runSimples 0 m (emitString .pack true v n off) =
      some { m with buf := put m.buf a (textLayout n s), p := some (a + n) } := by
  have hk : asIndex ((n : Int) - 1) = some (n - 1) := by
    unfold asIndex; rw [if_pos (by omega)]; congr 1; omega
  have ha : m.addr (.rel 0) = some a := by simpa using addr_rel m a hp 0
  have hlen : ((textLayout n s).take (n - 1)).length = n - 1 := by
    rw [List.length_take, textLayout_length]; omega
  let m1 : CMach := { m with buf := put m.buf a ((textLayout n s).take (n - 1)) }
  have hl1 : m1.buf.length = m.buf.length := put_length _ _ _ (by rw [hlen]; omega)
  have e1 : (CSimple.copyIn (.rel 0) v ((n : Int) - 1)).run 0 m = some m1 := by
    simp only [CSimple.run, hv, hc, hk, ha, Option.bind_eq_bind, Option.bind_some]
    rw [if_pos (by rw [textLayout_length]; omega), write_ok m _ _ hl (by rw [hlen]; omega)]
  have ha1 : m1.addr (.rel ((n : Int) - 1)) = some (a + (n - 1)) := by
    have := addr_rel m1 a hp (n - 1)
    have e : ((n - 1 : Nat) : Int) = (n : Int) - 1 := by omega
    rw [e] at this
    exact this
  let m2 : CMach := { m with buf := put m.buf a (textLayout n s) }
  have hl2 : m2.buf.length = m.buf.length := put_length _ _ _ (by rw [textLayout_length]; omega)
  have e2 : (CSimple.zero (.rel ((n : Int) - 1))).run 0 m1 = some m2 := by
    simp only [CSimple.run, ha1, Option.bind_eq_bind, Option.bind_some]
    rw [write_ok m1 _ _ hl (by simp only [List.length_singleton, hl1]; omega)]
    have hpp := put_put m.buf a ((textLayout n s).take (n - 1)) [0] (by rw [hlen]; simp; omega)
    rw [← textLayout_last n s hs, hlen] at hpp
    simp only [m1, m2, hpp]
  have e3 : (CSimple.advance n).run 0 m2 = some { m2 with p := some (a + n) } :=
    advance_ok 0 m2 a n hp (by rw [hl2]; exact hb)
  simp only [emitString, if_true, runSimples, e1, e2, e3, Option.bind_some, m2]

theorem packStrAbs_ok (m : CMach) (v : CPath) (n off : Nat) (s : Str) (c : CVal)
    (hl : m.locked = true) (hv : m.arg.get 0 v = some c) (hc : c.asChars = some (textLayout n s))
    (hs : (utf8Encode s).length < n) (hb : off + n ≤ m.buf.length) :
    runSimples 0 m (emitString .pack false v n off) = some { m with buf := put m.buf off (textLayout n s) } := by
  have hk : asIndex ((n : Int) - 1) = some (n - 1) := by
    unfold asIndex; rw [if_pos (by omega)]; congr 1; omega
  have ha : m.addr (.abs off) = some off := addr_abs m off
  have hlen : ((textLayout n s).take (n - 1)).length = n - 1 := by
    rw [List.length_take, textLayout_length]; omega
  let m1 : CMach := { m with buf := put m.buf off ((textLayout n s).take (n - 1)) }
  have hl1 : m1.buf.length = m.buf.length := put_length _ _ _ (by rw [hlen]; omega)
  have e1 : (CSimple.copyIn (.abs off) v ((n : Int) - 1)).run 0 m = some m1 := by
    simp only [CSimple.run, hv, hc, hk, ha, Option.bind_eq_bind, Option.bind_some]
    rw [if_pos (by rw [textLayout_length]; omega), write_ok m _ _ hl (by rw [hlen]; omega)]
  have ha1 : m1.addr (.abs ((off : Int) + ((n : Int) - 1))) = some (off + (n - 1)) := by
    have := addr_abs m1 (off + (n - 1))
    have e : ((off + (n - 1) : Nat) : Int) = (off : Int) + ((n : Int) - 1) := by omega
    rw [e] at this
    exact this
  have e2 : (CSimple.zero (.abs ((off : Int) + ((n : Int) - 1)))).run 0 m1 =
      some { m with buf := put m.buf off (textLayout n s) } := by
    simp only [CSimple.run, ha1, Option.bind_eq_bind, Option.bind_some]
    rw [write_ok m1 _ _ hl (by simp only [List.length_singleton, hl1]; omega)]
    have hpp := put_put m.buf off ((textLayout n s).take (n - 1)) [0] (by rw [hlen]; simp; omega)
    rw [← textLayout_last n s hs, hlen] at hpp
    simp only [m1, hpp]
  simp [emitString, runSimples, e1, e2]

theorem holds_take {data : Bytes} {a : Nat} {bs : Bytes} (h : Holds data a bs) (k : Nat) : Holds data a (bs.take k) := by
  have h1 : Holds data a (bs.take k ++ bs.drop k) := by rw [List.take_append_drop]; exact h
  exact h1.append.1

theorem copyOut_ok (m : CMach) (v : CPath) (loc : CLoc) (n a : Nat) (s : Str) (b : Bytes) (c : CVal)
    (ha : m.addr loc = some a) (hn : b.length + 1 = n)
    (hv : m.arg.update 0 (assignChars ((textLayout n s).take (n - 1))) v = some c)
    (hb : Holds m.buf a (textLayout n s)) :
    (CSimple.copyOut v loc ((n : Int) - 1)).run 0 m =
      some { m with arg := c, bare := if m.locked then m.bare else m.bare + (n - 1) } := by
  have hk : asIndex ((n : Int) - 1) = some (n - 1) := by
    unfold asIndex; rw [if_pos (by omega)]; congr 1; omega
  have hlen : ((textLayout n s).take (n - 1)).length = n - 1 := by
    rw [List.length_take, textLayout_length]; omega
  have hr := holds_read m a _ (holds_take hb (n - 1))
  rw [hlen] at hr
  simp only [CSimple.run, hk, ha, hr, Option.bind_eq_bind, Option.bind_some, CMach.assign, hv, Option.map_some]

theorem unpackStrRel_ok (m : CMach) (v : CPath) (n off a : Nat) (s : Str) (b : Bytes) (c : CVal)
    (hp : m.p = some a) (hn : b.length + 1 = n)
    (hv : m.arg.update 0 (assignChars ((textLayout n s).take (n - 1))) v = some c)
    (hb : Holds m.buf a (textLayout n s)) :
    runSimples 0 m (emitString .unpack true v n off) =
      some { m with arg := c, p := some (a + n), bare := if m.locked then m.bare else m.bare + (n - 1) } := by
  have ha : m.addr (.rel 0) = some a := by simpa using addr_rel m a hp 0
  have e1 := copyOut_ok m v (.rel 0) n a s b c ha hn hv hb
  have e3 : (CSimple.advance n).run 0 { m with arg := c, bare := if m.locked then m.bare else m.bare + (n - 1) } =
      some { m with arg := c, p := some (a + n), bare := if m.locked then m.bare else m.bare + (n - 1) } :=
    advance_ok 0 { m with arg := c, bare := if m.locked then m.bare else m.bare + (n - 1) } a n hp
      (by have := hb.1; rw [textLayout_length] at this; exact this)
  simp only [emitString, if_true, runSimples, e1, e3, Option.bind_some]

theorem unpackStrAbs_ok (m : CMach) (v : CPath) (n off : Nat) (s : Str) (b : Bytes) (c : CVal)
    (hn : b.length + 1 = n) (hv : m.arg.update 0 (assignChars ((textLayout n s).take (n - 1))) v = some c)
    (hb : Holds m.buf off (textLayout n s)) :
    runSimples 0 m (emitString .unpack false v n off) =
      some { m with arg := c, bare := if m.locked then m.bare else m.bare + (n - 1) } := by
  have e1 := copyOut_ok m v (.abs off) n off s b c (addr_abs m off) hn hv hb
  simp [emitString, runSimples, e1]

theorem assignChars_last (n : Nat) (s : Str) (b : Bytes) (hn : b.length + 1 = n) (hs : (utf8Encode s).length < n) :
    assignChars ((textLayout n s).take (n - 1)) (.chars (b ++ [0])) = some (.chars (textLayout n s)) := by
  have hlen : ((textLayout n s).take (n - 1)).length = n - 1 := by
    rw [List.length_take, textLayout_length]; omega
  simp only [assignChars]
  rw [if_pos (by rw [hlen]; simp; omega), hlen, List.drop_append_of_le_length (by omega),
    List.drop_of_length_le (by omega), List.nil_append, ← textLayout_last n s hs]

theorem assignChars_ptr_last (n : Nat) (s : Str) (b : Bytes) (hn : b.length + 1 = n) (hs : (utf8Encode s).length < n) :
    assignChars ((textLayout n s).take (n - 1)) (.ptr (.chars (b ++ [0]))) = some (.ptr (.chars (textLayout n s))) := by
  have h := assignChars_last n s b hn hs
  simp only [assignChars] at h ⊢
  split at h
  · rename_i h1
    rw [if_pos h1]
    simp only [Option.some.injEq, CVal.chars.injEq] at h
    rw [h]
  · simp at h

/-! ### Elements -/

/-- The widths of loop variables. -/
def WOk (b : Option Nat) : Prop := ∀ x, b = some x → x = 8 ∨ x = 16 ∨ x = 32

/-- The second variable is at least as wide. -/
def LoopLe (a b : Option Nat) : Prop := ∀ x, a = some x → ∃ y, b = some y ∧ x ≤ y

theorem LoopLe.refl (a : Option Nat) : LoopLe a a := fun x h => ⟨x, h, Nat.le_refl x⟩

theorem LoopLe.trans {a b c : Option Nat} (h1 : LoopLe a b) (h2 : LoopLe b c) : LoopLe a c := by
  intro x hx
  obtain ⟨y, hy, hxy⟩ := h1 x hx
  obtain ⟨z, hz, hyz⟩ := h2 y hy
  exact ⟨z, hz, Nat.le_trans hxy hyz⟩

theorem loopWidth_cases (n : Nat) : loopWidth n = 8 ∨ loopWidth n = 16 ∨ loopWidth n = 32 := by
  unfold loopWidth
  split
  · simp
  · split <;> simp

theorem loopWidth_enough (n : Nat) (h : n < 4294967296) : n < 2 ^ loopWidth n := by
  unfold loopWidth
  split
  · omega
  · split <;> omega

theorem widenLoop_wok (w : Nat) (hw : w = 8 ∨ w = 16 ∨ w = 32) (b : Option Nat) (hb : WOk b) :
    WOk (some (widenLoop w b)) := by
  intro x hx
  simp only [Option.some.injEq] at hx
  subst hx
  cases b with
  | none => exact hw
  | some b =>
    have := hb b rfl
    simp only [widenLoop]
    split
    · exact hw
    · split
      · exact hw
      · exact this

theorem widenLoop_left (w : Nat) (hw : w = 8 ∨ w = 16 ∨ w = 32) (b : Option Nat) (hb : WOk b) : w ≤ widenLoop w b := by
  cases b with
  | none => exact Nat.le_refl _
  | some b =>
    have := hb b rfl
    simp only [widenLoop]
    split
    · omega
    · split <;> omega

theorem widenLoop_right (w : Nat) (b : Option Nat) : LoopLe b (some (widenLoop w b)) := by
  intro x hx
  subst hx
  refine ⟨_, rfl, ?_⟩
  simp only [widenLoop]
  split
  · omega
  · split <;> omega

theorem castType_of (tc : TypeCode) (mn mx : Option Int) (a : Option Nat) (t : IntT) (h : tc.integer = some t) :
    castType (.prim tc mn mx a) = .ok t := by
  cases tc <;> simp [TypeCode.integer] at h <;> subst h <;> rfl

theorem resolve_prim (tc : TypeCode) (mn mx : Option Int) (a : Option Nat) :
    (Elem.prim tc mn mx a).resolveDataElement = .ok (.prim tc mn mx a) := rfl

theorem genInteger_of (op : COp) (bp : Bool) (v : CPath) (e : Elem) (off : Nat) (tc : TypeCode) (mn mx : Option Int)
    (a : Option Nat) (t : IntT) (he : e.resolveDataElement = .ok (.prim tc mn mx a)) (h : tc.integer = some t) :
    genInteger op bp v e off = .ok (emitInteger op bp v t off, t.size) := by
  unfold genInteger
  rw [he, ok_bind, castType_of tc mn mx a t h, ok_bind]

theorem complex_of_resolve (e d : Elem) (h : e.resolveDataElement = .ok d) :
    e.isComplexType = .ok (d.arrayLen.isSome || (match d with | .record _ _ => true | _ => false)) := by
  unfold Elem.isComplexType Elem.isArray
  simp only [h, ok_bind]
  cases ha : d.arrayLen with
  | some n => simp
  | none =>
    simp only [Option.isSome_none, Bool.false_eq_true, if_false, Bool.false_or]
    cases d <;> rfl

/-- The integer case. -/
theorem genElem_int (sfx : Str) (op : COp) (lv : CLocals) (off : Nat) (val : CName) (e : Elem) (tc : TypeCode)
    (mn mx : Option Int) (t : IntT) (he : e.resolveDataElement = .ok (.prim tc mn mx none)) (h : tc.integer = some t) :
    genElem sfx op lv off val e = .ok ((emitInteger op lv.bufptr val.path t off).map .simple, t.size, lv) := by
  unfold genElem
  rw [complex_of_resolve e _ he]
  simp only [Elem.arrayLen, Option.isSome_none, Bool.or_self]
  unfold genPlain
  rw [genInteger_of op lv.bufptr val.path e off tc mn mx none t he h, ok_bind]

theorem genElem_array (sfx : Str) (op : COp) (lv : CLocals) (off : Nat) (val : CName) (tc : TypeCode)
    (mn mx : Option Int) (n : Nat) (t : IntT) (h : tc.integer = some t) :
    genElem sfx op lv off val (.prim tc mn mx (some n)) =
      .ok ([.loop n (emitInteger op true (val.path ++ [.idx]) t off)], t.size * n,
        ⟨true, some (widenLoop (loopWidth n) lv.loopBits)⟩) := by
  unfold genElem
  rw [complex_of_resolve _ _ (resolve_prim _ _ _ _)]
  have hs : tc ≠ .str := by intro hs; subst hs; simp [TypeCode.integer] at h
  simp only [Elem.arrayLen, Option.isSome_some, Bool.true_or]
  have : genOther op lv val.path (.prim tc mn mx (some n)) off =
      .ok ([.loop n (emitInteger op true (val.path ++ [.idx]) t off)], t.size * n,
        ⟨true, some (widenLoop (loopWidth n) lv.loopBits)⟩) := by
    unfold genOther Elem.isArray
    rw [resolve_prim]
    simp only [ok_bind, Elem.arrayLen, Option.isSome_some, if_true]
    unfold genArray
    simp only [Elem.arrayLen]
    rw [genInteger_of op true (val.path ++ [CAccess.idx]) _ off tc mn mx (some n) t (resolve_prim _ _ _ _) h, ok_bind]
  cases tc <;> first | exact absurd rfl hs | exact this

theorem genElem_str (sfx : Str) (op : COp) (lv : CLocals) (off : Nat) (val : CName) (mn mx : Option Int) (n : Nat) :
    genElem sfx op lv off val (.prim .str mn mx (some n)) =
      .ok ((emitString op lv.bufptr val.path n off).map .simple, n, lv) := by
  unfold genElem
  rw [complex_of_resolve _ _ (resolve_prim _ _ _ _)]
  simp only [Elem.arrayLen, Option.isSome_some, Bool.true_or]

theorem genElem_record (sfx : Str) (op : COp) (lv : CLocals) (off : Nat) (val : CName) (fs : Fields) :
    genElem sfx op lv off val (.record fs none) = genFields sfx op ⟨true, lv.loopBits⟩ off val fs := by
  have hr : (Elem.record fs none).resolveDataElement = .ok (.record fs none) := rfl
  unfold genElem
  rw [complex_of_resolve _ _ hr]
  simp only [Elem.arrayLen, Option.isSome_none, Bool.or_true]

/-- The lvalue of a member. -/
def CName.childPath (sfx : Str) (name : Option Str) : CName → CPath
  | .var true => [.arrow (name.getD "None".toList ++ sfx)]
  | .var false => [.dot (name.getD "None".toList ++ sfx)]
  | .text p => p ++ [.dot (name.getD "None".toList)]

theorem CName.child_eq (sfx : Str) (name : Option Str) (val : CName) :
    val.child sfx name = .text (val.childPath sfx name) := by
  cases val with
  | var b => cases b <;> rfl
  | text p => rfl

/-- Like `Fields.Repr`, but only the outermost member names carry the suffix. -/
def FieldsAt (ss : Str) : Fields → List (Str × PyVal) → CFields → Prop
  | .nil, _, .nil => True
  | .cons (some k) e r, d, .cons k' c cs =>
    k' = k ++ ss ∧ (∃ v, d.lookup k = some v ∧ e.Repr [] v c) ∧ FieldsAt ss r d cs
  | _, _, _ => False

theorem fieldsAt_nil (fs : Fields) (d : List (Str × PyVal)) (cs : CFields) (h : fs.Repr [] d cs) :
    FieldsAt [] fs d cs := by
  induction fs using Fields.rec (motive_1 := fun _ => True) generalizing cs with
  | nil => cases cs <;> simp [Fields.Repr, FieldsAt] at h ⊢
  | cons n e r _ ih =>
    cases n with
    | none => simp [Fields.Repr] at h
    | some k =>
      cases cs with
      | nil => simp [Fields.Repr] at h
      | cons k' c cs =>
        simp only [Fields.Repr] at h
        exact ⟨h.1, h.2.1, ih cs h.2.2⟩
  | _ => trivial

theorem repr_flat (sfx sfx' : Str) (e : Elem) (he : e.IsFlat) (v : PyVal) (c : CVal) (h : e.Repr sfx v c) :
    e.Repr sfx' v c := by
  induction e using Elem.rec (motive_2 := fun _ => True) with
  | prim tc mn mx a =>
    cases a <;> simpa only [Elem.Repr] using h
  | record fs a => simp [Elem.IsFlat] at he
  | refType n t ih =>
    simp only [Elem.IsFlat] at he
    simp only [Elem.Repr] at h ⊢
    exact ih he h
  | refId i => simp [Elem.Repr] at h
  | refName i => simp [Elem.Repr] at h
  | _ => trivial

theorem fieldsAt_flat (sfx : Str) (fs : Fields) (hf : fs.AllFlat) (d : List (Str × PyVal)) (cs : CFields)
    (h : fs.Repr sfx d cs) : FieldsAt sfx fs d cs := by
  induction fs using Fields.rec (motive_1 := fun _ => True) generalizing cs with
  | nil => cases cs <;> simp [Fields.Repr, FieldsAt] at h ⊢
  | cons n e r _ ih =>
    cases n with
    | none => simp [Fields.Repr] at h
    | some k =>
      cases cs with
      | nil => simp [Fields.Repr] at h
      | cons k' c cs =>
        simp only [Fields.Repr] at h
        obtain ⟨h1, ⟨v, h2, h3⟩, h4⟩ := h
        exact ⟨h1, ⟨v, h2, repr_flat sfx [] e hf.1 v c h3⟩, ih hf.2 cs h4⟩
  | _ => trivial

/-- A value that is represented is an admissible value. -/
theorem repr_int_of_resolve (sfx : Str) (n : Nat) (e : Elem) (tc : TypeCode) (mn mx : Option Int) (a : Option Nat)
    (he : e.resolveLoop n = .ok (.prim tc mn mx a)) (v : PyVal) (c : CVal) :
    (e.Repr sfx v c ↔ (Elem.prim tc mn mx a).Repr sfx v c) ∧ e.layout v = (Elem.prim tc mn mx a).layout v ∧
      (e.Shape sfx c ↔ (Elem.prim tc mn mx a).Shape sfx c) := by
  induction n generalizing e with
  | zero =>
    cases e <;> simp [Elem.resolveLoop] at he
    obtain ⟨rfl, rfl, rfl, rfl⟩ := he
    exact ⟨Iff.rfl, rfl, Iff.rfl⟩
  | succ n ih =>
    cases e with
    | refType nm t =>
      simp only [Elem.resolveLoop] at he
      simp only [Elem.Repr, Elem.layout, Elem.Shape]
      exact ih t he
    | prim _ _ _ _ =>
      simp only [Elem.resolveLoop, Except.ok.injEq, Elem.prim.injEq] at he
      obtain ⟨rfl, rfl, rfl, rfl⟩ := he
      exact ⟨Iff.rfl, rfl, Iff.rfl⟩
    | _ => simp [Elem.resolveLoop] at he

/-- What is emitted for an element inside a record, for writing. -/
def PackE (sfx : Str) (e : Elem) : Prop :=
  e.CSupported → ∀ (lb : Option Nat) (off : Nat) (p : CPath), WOk lb →
    ∃ (code : List CStmt) (len : Nat) (lb' : Option Nat),
      genElem sfx .pack ⟨true, lb⟩ off (.text p) e = .ok (code, len, ⟨true, lb'⟩) ∧ WOk lb' ∧ LoopLe lb lb' ∧
      ∀ (bits : Option Nat), LoopLe lb' bits → ∀ (v : PyVal) (c : CVal) (m : CMach) (a : Nat),
        e.Repr [] v c → (∀ i, m.arg.get i p = some c) → m.locked = true → m.p = some a → a + len ≤ m.buf.length →
        ∃ bs, e.layout v = some bs ∧ bs.length = len ∧
          runTops bits m (code.map CTop.stmt) = some { m with buf := put m.buf a bs, p := some (a + len) }

/-- What is emitted for the fields of a record, for writing. -/
def PackF (sfx : Str) (fs : Fields) : Prop :=
  fs.CSupported → ∀ (lb : Option Nat) (off : Nat) (val : CName), WOk lb →
    ∃ (code : List CStmt) (len : Nat) (lb' : Option Nat),
      genFields sfx .pack ⟨true, lb⟩ off val fs = .ok (code, len, ⟨true, lb'⟩) ∧ WOk lb' ∧ LoopLe lb lb' ∧
      ∀ (bits : Option Nat), LoopLe lb' bits → ∀ (ss : Str) (d : List (Str × PyVal)) (cs : CFields) (m : CMach) (a : Nat),
        FieldsAt ss fs d cs → fs.names.Nodup →
        (∀ k c, some k ∈ fs.names → cs.get (k ++ ss) = some c → ∀ i, m.arg.get i (val.childPath sfx (some k)) = some c) →
        m.locked = true → m.p = some a → a + len ≤ m.buf.length →
        ∃ bs, fs.layout d = some bs ∧ bs.length = len ∧
          runTops bits m (code.map CTop.stmt) = some { m with buf := put m.buf a bs, p := some (a + len) }

theorem layout_int (tc : TypeCode) (mn mx : Option Int) (t : IntT) (ht : tc.integer = some t) (i : Int) (hi : t.InRange i) :
    (Elem.prim tc mn mx none).layout (.int i) = some (littleEndian t.size i) := by
  simp only [Elem.layout, ht, intLayout, if_pos hi, width_eq]

theorem layout_ints (tc : TypeCode) (mn mx : Option Int) (t : IntT) (ht : tc.integer = some t) (l : List Int)
    (hi : ∀ i ∈ l, t.InRange i) :
    (Elem.prim tc mn mx (some l.length)).layout (.list (l.map .int)) = some (intsBytes t l) := by
  simp only [Elem.layout, ht]
  rw [if_pos (by simp), List.take_of_length_le (by simp), intsLayout_ints t l hi]

theorem layout_text (mn mx : Option Int) (n : Nat) (s : Str) :
    (Elem.prim .str mn mx (some n)).layout (.str s) = some (textLayout n s) := by
  simp only [Elem.layout, TypeCode.integer, if_true]

theorem packE_int (sfx : Str) (e : Elem) (tc : TypeCode) (mn mx : Option Int)
    (he : e.resolveDataElement = .ok (.prim tc mn mx none)) (hi : tc.integer.isSome) (lb : Option Nat) (off : Nat)
    (p : CPath) (hlb : WOk lb) :
    ∃ (code : List CStmt) (len : Nat) (lb' : Option Nat),
      genElem sfx .pack ⟨true, lb⟩ off (.text p) e = .ok (code, len, ⟨true, lb'⟩) ∧ WOk lb' ∧ LoopLe lb lb' ∧
      ∀ (bits : Option Nat), LoopLe lb' bits → ∀ (v : PyVal) (c : CVal) (m : CMach) (a : Nat),
        e.Repr [] v c → (∀ i, m.arg.get i p = some c) → m.locked = true → m.p = some a → a + len ≤ m.buf.length →
        ∃ bs, e.layout v = some bs ∧ bs.length = len ∧
          runTops bits m (code.map CTop.stmt) = some { m with buf := put m.buf a bs, p := some (a + len) } := by
  obtain ⟨t, ht⟩ := Option.isSome_iff_exists.mp hi
  refine ⟨_, _, _, genElem_int sfx .pack ⟨true, lb⟩ off (.text p) e tc mn mx t he ht, hlb, LoopLe.refl _, ?_⟩
  intro bits _ v c m a hr hg hl hp hb
  obtain ⟨h1, h2, _⟩ := repr_int_of_resolve [] _ e tc mn mx none he v c
  rw [h1] at hr
  simp only [Elem.Repr] at hr
  obtain ⟨t', i, ht', hin, rfl, rfl⟩ := hr
  rw [ht] at ht'
  cases ht'
  refine ⟨littleEndian t.size i, by rw [h2, layout_int tc mn mx t ht i hin], by simp, ?_⟩
  rw [runTops_simple]
  exact packRel_ok 0 m p t off a i hl hp (hg 0) hb

theorem packF_nil (sfx : Str) : PackF sfx .nil := by
  intro _ lb off val hlb
  refine ⟨[], 0, lb, rfl, hlb, LoopLe.refl _, ?_⟩
  intro bits _ ss d cs m a _ _ _ _ hp _
  exact ⟨[], rfl, rfl, by simp [runTops, put_nil, ← hp]⟩

theorem packF_cons (sfx : Str) (name : Option Str) (e : Elem) (r : Fields) (ihe : PackE sfx e) (ihr : PackF sfx r) :
    PackF sfx (.cons name e r) := by
  intro hs lb off val hlb
  simp only [Fields.CSupported] at hs
  obtain ⟨code1, len1, lb1, a1, a2, a3, a4⟩ := ihe hs.1 lb off (val.childPath sfx name) hlb
  obtain ⟨code2, len2, lb2, b1, b2, b3, b4⟩ := ihr hs.2 lb1 (off + len1) val a2
  refine ⟨code1 ++ code2, len1 + len2, lb2, ?_, b2, a3.trans b3, ?_⟩
  · simp only [genFields]
    rw [CName.child_eq, a1, ok_bind, b1, ok_bind]
  · intro bits hbits ss d cs m a hat hnd hget hl hp hb
    cases name with
    | none => cases cs <;> simp [FieldsAt] at hat
    | some k =>
      cases cs with
      | nil => simp [FieldsAt] at hat
      | cons k' c cs =>
        obtain ⟨rfl, ⟨v, hv, hr⟩, hat⟩ := hat
        simp only [Fields.names, List.nodup_cons] at hnd
        obtain ⟨bs1, l1, n1, r1⟩ := a4 bits (b3.trans hbits) v c m a hr
          (hget k c (by simp [Fields.names]) (by simp [CFields.get])) hl hp (by omega)
        let m1 : CMach := { m with buf := put m.buf a bs1, p := some (a + len1) }
        have hl1 : m1.buf.length = m.buf.length := put_length _ _ _ (by omega)
        obtain ⟨bs2, l2, n2, r2⟩ := b4 bits hbits ss d cs m1 (a + len1) hat hnd.2 (by
          intro k2 c2 hk2 hc2
          refine hget k2 c2 (by simp [Fields.names, hk2]) ?_
          simp only [CFields.get]
          rw [if_neg]
          · exact hc2
          · intro heq
            rw [List.append_cancel_right heq] at hnd
            exact hnd.1 hk2) hl rfl (by rw [hl1]; omega)
        refine ⟨bs1 ++ bs2, by simp [Fields.layout, hv, l1, l2], by simp [n1, n2], ?_⟩
        rw [List.map_append, runTops_append, r1]
        simp only [Option.bind_some]
        rw [r2]
        simp only [m1]
        have hpp := put_put m.buf a bs1 bs2 (by omega)
        rw [n1] at hpp
        rw [hpp, Nat.add_assoc]


theorem packE (sfx : Str) (e : Elem) : PackE sfx e := by
  induction e using Elem.rec (motive_2 := fun fs => PackF sfx fs) with
  | prim tc mn mx a =>
    intro hs lb off p hlb
    cases a with
    | none => exact packE_int sfx _ tc mn mx (resolve_prim _ _ _ _) hs lb off p hlb
    | some n =>
      simp only [Elem.CSupported] at hs
      obtain ⟨hs | hs, hn⟩ := hs
      · obtain ⟨t, ht⟩ := Option.isSome_iff_exists.mp hs
        refine ⟨_, _, _, genElem_array sfx .pack ⟨true, lb⟩ off (.text p) tc mn mx n t ht,
          widenLoop_wok _ (loopWidth_cases n) _ hlb, widenLoop_right _ _, ?_⟩
        intro bits hbits v c m a hr hg hl hp hb
        obtain ⟨B, hB, hle⟩ := hbits _ rfl
        have hnB : n < 2 ^ B := by
          have h1 := loopWidth_enough n hn
          have h2 := widenLoop_left _ (loopWidth_cases n) _ hlb
          exact Nat.lt_of_lt_of_le h1 (Nat.pow_le_pow_right (by decide) (Nat.le_trans h2 hle))
        simp only [Elem.Repr] at hr
        rcases hr with ⟨t', l, ht', hin, hlen, rfl, rfl⟩ | ⟨s, rfl, _⟩
        · rw [ht] at ht'
          cases ht'
          subst hlen
          refine ⟨intsBytes t l, layout_ints tc mn mx t ht l hin, intsBytes_length t l, ?_⟩
          rw [runTops_loop bits _ _ m B hB hnB]
          have := packRounds_ok (p ++ [.idx]) t off l l [] m a rfl hl hp (by
            intro i
            rw [CVal.get_append, hg i]
            simp only [Option.bind_some, CVal.get]
            cases l[i]? <;> rfl) (by rw [intsBytes_length]; exact hb)
          rw [intsBytes_length] at this
          exact this
        · simp [TypeCode.integer] at ht
      · subst hs
        refine ⟨_, _, _, genElem_str sfx .pack ⟨true, lb⟩ off (.text p) mn mx n, hlb, LoopLe.refl _, ?_⟩
        intro bits hbits v c m a hr hg hl hp hb
        simp only [Elem.Repr] at hr
        rcases hr with ⟨t', l, ht', _⟩ | ⟨s, _, hlen, rfl, rfl⟩
        · simp [TypeCode.integer] at ht'
        · refine ⟨textLayout n s, layout_text mn mx n s, textLayout_length n s, ?_⟩
          rw [runTops_simple]
          exact packStrRel_ok m p n off a s _ hl hp (hg 0) rfl hlen hb
  | record fs a ih =>
    intro hs lb off p hlb
    cases a with
    | some n => simp [Elem.CSupported] at hs
    | none =>
      simp only [Elem.CSupported] at hs
      obtain ⟨code, len, lb', h1, h2, h3, h4⟩ := ih hs.2 lb off (.text p) hlb
      refine ⟨code, len, lb', by rw [genElem_record]; exact h1, h2, h3, ?_⟩
      intro bits hbits v c m a hr hg hl hp hb
      cases v with
      | dict d =>
        cases c with
        | struct cs =>
          simp only [Elem.Repr] at hr
          refine h4 bits hbits [] d cs m a (fieldsAt_nil fs d cs hr) hs.1 ?_ hl hp hb
          intro k c _ hk i
          rw [List.append_nil] at hk
          show m.arg.get i (p ++ [.dot k]) = some c
          rw [CVal.get_append, hg i]
          simp [CVal.get, hk]
        | _ => simp [Elem.Repr] at hr
      | _ => simp [Elem.Repr] at hr
  | refId i => intro hs; simp [Elem.CSupported] at hs
  | refName i => intro hs; simp [Elem.CSupported] at hs
  | refType nm t _ =>
    intro hs lb off p hlb
    simp only [Elem.CSupported] at hs
    obtain ⟨tc, mn, mx, h1, h2⟩ := hs
    exact packE_int sfx _ tc mn mx h1 h2 lb off p hlb
  | nil => exact packF_nil sfx
  | cons name e r ihe ihr => exact packF_cons sfx name e r ihe ihr

theorem packF (sfx : Str) (fs : Fields) : PackF sfx fs := by
  induction fs using Fields.rec (motive_1 := fun _ => True) with
  | nil => exact packF_nil sfx
  | cons name e r _ ih => exact packF_cons sfx name e r (packE sfx e) ih
  | _ => trivial

/-! ### Reading -/

/-- Members of one struct followed by those of another. -/
def CFields.app : CFields → CFields → CFields
  | .nil, g => g
  | .cons n c r, g => .cons n c (r.app g)

theorem CFields.app_snoc (pre : CFields) (n : Str) (c : CVal) (g : CFields) :
    (pre.app (.cons n c .nil)).app g = pre.app (.cons n c g) := by
  induction pre using CFields.rec (motive_1 := fun _ => True) with
  | nil => rfl
  | cons _ _ r _ ih => simp [CFields.app, ih]
  | _ => trivial

theorem CFields.get_app_none (pre g : CFields) (n : Str) (h1 : pre.get n = none) (h2 : g.get n = none) :
    (pre.app g).get n = none := by
  induction pre using CFields.rec (motive_1 := fun _ => True) with
  | nil => exact h2
  | cons m c r _ ih =>
    simp only [CFields.get] at h1
    split at h1
    · simp at h1
    · rename_i hne
      simp only [CFields.app, CFields.get, if_neg hne]
      exact ih h1
  | _ => trivial

theorem CFields.update_app (pre g : CFields) (n : Str) (f : CVal → Option CVal) (h : pre.get n = none) :
    (pre.app g).update n f = (g.update n f).map pre.app := by
  induction pre using CFields.rec (motive_1 := fun _ => True) with
  | nil => simp only [CFields.app]; cases g.update n f <;> rfl
  | cons m c r _ ih =>
    simp only [CFields.get] at h
    split at h
    · simp at h
    · rename_i hne
      simp only [CFields.app, CFields.update, if_neg hne]
      rw [ih h]
      cases g.update n f <;> rfl
  | _ => trivial

/-- Like `Fields.Shape`, but only the outermost member names carry the suffix. -/
def ShapeAt (ss : Str) : Fields → CFields → Prop
  | .nil, .nil => True
  | .cons (some k) e r, .cons k' c cs => k' = k ++ ss ∧ e.Shape [] c ∧ ShapeAt ss r cs
  | _, _ => False

theorem shapeAt_nil (fs : Fields) (cs : CFields) (h : fs.Shape [] cs) : ShapeAt [] fs cs := by
  induction fs using Fields.rec (motive_1 := fun _ => True) generalizing cs with
  | nil => cases cs <;> simp [Fields.Shape, ShapeAt] at h ⊢
  | cons n e r _ ih =>
    cases n with
    | none => simp [Fields.Shape] at h
    | some k =>
      cases cs with
      | nil => simp [Fields.Shape] at h
      | cons k' c cs =>
        simp only [Fields.Shape] at h
        exact ⟨h.1, h.2.1, ih cs h.2.2⟩
  | _ => trivial

theorem shape_flat (sfx sfx' : Str) (e : Elem) (he : e.IsFlat) (c : CVal) (h : e.Shape sfx c) : e.Shape sfx' c := by
  induction e using Elem.rec (motive_2 := fun _ => True) with
  | prim tc mn mx a =>
    cases a <;> simpa only [Elem.Shape] using h
  | record fs a => simp [Elem.IsFlat] at he
  | refType n t ih =>
    simp only [Elem.IsFlat] at he
    simp only [Elem.Shape] at h ⊢
    exact ih he h
  | refId i => simp [Elem.Shape] at h
  | refName i => simp [Elem.Shape] at h
  | _ => trivial

theorem shapeAt_flat (sfx : Str) (fs : Fields) (hf : fs.AllFlat) (cs : CFields) (h : fs.Shape sfx cs) :
    ShapeAt sfx fs cs := by
  induction fs using Fields.rec (motive_1 := fun _ => True) generalizing cs with
  | nil => cases cs <;> simp [Fields.Shape, ShapeAt] at h ⊢
  | cons n e r _ ih =>
    cases n with
    | none => simp [Fields.Shape] at h
    | some k =>
      cases cs with
      | nil => simp [Fields.Shape] at h
      | cons k' c cs =>
        simp only [Fields.Shape] at h
        exact ⟨h.1, shape_flat sfx [] e hf.1 c h.2.1, ih hf.2 cs h.2.2⟩
  | _ => trivial

/-- The lvalue denotes the object from which `ctx` builds the argument. -/
def Focus (p : CPath) (ctx : CVal → CVal) : Prop :=
  ∀ i f x, (ctx x).update i f p = (f x).map ctx

/-- What is emitted for an element inside a record, for reading. -/
def UnpackE (sfx : Str) (e : Elem) : Prop :=
  e.CSupported → ∀ (lb : Option Nat) (off : Nat) (p : CPath), WOk lb →
    ∃ (code : List CStmt) (len : Nat) (lb' : Option Nat),
      genElem sfx .unpack ⟨true, lb⟩ off (.text p) e = .ok (code, len, ⟨true, lb'⟩) ∧ WOk lb' ∧ LoopLe lb lb' ∧
      ∀ (bits : Option Nat), LoopLe lb' bits → ∀ (v : PyVal) (c c0 : CVal) (bs : Bytes) (ctx : CVal → CVal) (m : CMach)
        (a : Nat), e.Repr [] v c → e.Shape [] c0 → Focus p ctx → m.arg = ctx c0 → m.p = some a →
        e.layout v = some bs → Holds m.buf a bs →
        bs.length = len ∧ ∃ b, BareOk m.locked m.bare b len ∧
          runTops bits m (code.map CTop.stmt) = some { m with arg := ctx c, p := some (a + len), bare := b }

/-- What is emitted for the fields of a record, for reading. -/
def UnpackF (sfx : Str) (fs : Fields) : Prop :=
  fs.CSupported → ∀ (lb : Option Nat) (off : Nat) (val : CName), WOk lb →
    ∃ (code : List CStmt) (len : Nat) (lb' : Option Nat),
      genFields sfx .unpack ⟨true, lb⟩ off val fs = .ok (code, len, ⟨true, lb'⟩) ∧ WOk lb' ∧ LoopLe lb lb' ∧
      ∀ (bits : Option Nat), LoopLe lb' bits → ∀ (ss : Str) (d : List (Str × PyVal)) (cs cs0 pre : CFields) (bs : Bytes)
        (S : CFields → CVal) (m : CMach) (a : Nat), FieldsAt ss fs d cs → ShapeAt ss fs cs0 → fs.names.Nodup →
        (∀ i k f gs, (S gs).update i f (val.childPath sfx (some k)) = (gs.update (k ++ ss) f).map S) →
        (∀ k, some k ∈ fs.names → pre.get (k ++ ss) = none) → m.arg = S (pre.app cs0) →
        m.p = some a → fs.layout d = some bs → Holds m.buf a bs →
        bs.length = len ∧ ∃ b, BareOk m.locked m.bare b len ∧
          runTops bits m (code.map CTop.stmt) = some { m with arg := S (pre.app cs), p := some (a + len), bare := b }

theorem unpackE_int (sfx : Str) (e : Elem) (tc : TypeCode) (mn mx : Option Int)
    (he : e.resolveDataElement = .ok (.prim tc mn mx none)) (hi : tc.integer.isSome) (lb : Option Nat) (off : Nat)
    (p : CPath) (hlb : WOk lb) :
    ∃ (code : List CStmt) (len : Nat) (lb' : Option Nat),
      genElem sfx .unpack ⟨true, lb⟩ off (.text p) e = .ok (code, len, ⟨true, lb'⟩) ∧ WOk lb' ∧ LoopLe lb lb' ∧
      ∀ (bits : Option Nat), LoopLe lb' bits → ∀ (v : PyVal) (c c0 : CVal) (bs : Bytes) (ctx : CVal → CVal) (m : CMach)
        (a : Nat), e.Repr [] v c → e.Shape [] c0 → Focus p ctx → m.arg = ctx c0 → m.p = some a →
        e.layout v = some bs → Holds m.buf a bs →
        bs.length = len ∧ ∃ b, BareOk m.locked m.bare b len ∧
          runTops bits m (code.map CTop.stmt) = some { m with arg := ctx c, p := some (a + len), bare := b } := by
  obtain ⟨t, ht⟩ := Option.isSome_iff_exists.mp hi
  refine ⟨_, _, _, genElem_int sfx .unpack ⟨true, lb⟩ off (.text p) e tc mn mx t he ht, hlb, LoopLe.refl _, ?_⟩
  intro bits _ v c c0 bs ctx m a hr hsh hf harg hp hlay hb
  obtain ⟨h1, h2, _⟩ := repr_int_of_resolve [] _ e tc mn mx none he v c
  obtain ⟨_, _, h3⟩ := repr_int_of_resolve [] _ e tc mn mx none he v c0
  rw [h1] at hr
  rw [h3] at hsh
  rw [h2] at hlay
  simp only [Elem.Repr] at hr
  simp only [Elem.Shape] at hsh
  obtain ⟨t', i, ht', hin, rfl, rfl⟩ := hr
  obtain ⟨_, j, rfl⟩ := hsh
  rw [ht] at ht'
  cases ht'
  rw [layout_int tc mn mx t ht i hin] at hlay
  cases hlay
  refine ⟨by simp, _, BareOk.ite _ _ t.size _ (Nat.le_refl _), ?_⟩
  rw [runTops_simple]
  exact unpackRel_ok 0 m p t off a i (ctx (.int i)) hp hin (by rw [harg, hf]; rfl) hb

theorem unpackF_nil (sfx : Str) : UnpackF sfx .nil := by
  intro _ lb off val hlb
  refine ⟨[], 0, lb, rfl, hlb, LoopLe.refl _, ?_⟩
  intro bits _ ss d cs cs0 pre bs S m a h1 h2 _ _ _ harg hp hlay _
  cases cs <;> cases cs0 <;> simp [FieldsAt, ShapeAt] at h1 h2
  simp only [Fields.layout, Option.some.injEq] at hlay
  subst hlay
  exact ⟨rfl, m.bare, BareOk.refl _ _, by simp [runTops, ← hp, ← harg]⟩

theorem unpackF_cons (sfx : Str) (name : Option Str) (e : Elem) (r : Fields) (ihe : UnpackE sfx e) (ihr : UnpackF sfx r) :
    UnpackF sfx (.cons name e r) := by
  intro hs lb off val hlb
  simp only [Fields.CSupported] at hs
  obtain ⟨code1, len1, lb1, a1, a2, a3, a4⟩ := ihe hs.1 lb off (val.childPath sfx name) hlb
  obtain ⟨code2, len2, lb2, b1, b2, b3, b4⟩ := ihr hs.2 lb1 (off + len1) val a2
  refine ⟨code1 ++ code2, len1 + len2, lb2, ?_, b2, a3.trans b3, ?_⟩
  · simp only [genFields]
    rw [CName.child_eq, a1, ok_bind, b1, ok_bind]
  · intro bits hbits ss d cs cs0 pre bs S m a hat hsat hnd hS hpre harg hp hlay hb
    cases name with
    | none => cases cs <;> simp [FieldsAt] at hat
    | some k =>
      cases cs with
      | nil => simp [FieldsAt] at hat
      | cons k' c cs =>
        cases cs0 with
        | nil => simp [ShapeAt] at hsat
        | cons k0 c0 cs0 =>
          obtain ⟨rfl, ⟨v, hv, hr⟩, hat⟩ := hat
          obtain ⟨rfl, hsh, hsat⟩ := hsat
          simp only [Fields.names, List.nodup_cons] at hnd
          cases l1 : e.layout v with
          | none => simp [Fields.layout, hv, l1] at hlay
          | some bs1 =>
            cases l2 : r.layout d with
            | none => simp [Fields.layout, hv, l1, l2] at hlay
            | some bs2 =>
              simp only [Fields.layout, hv, l1, l2, Option.some.injEq] at hlay
              subst hlay
              obtain ⟨hb1, hb2⟩ := hb.append
              have hfoc : Focus (val.childPath sfx (some k)) (fun x => S (pre.app (.cons (k ++ ss) x cs0))) := by
                intro i f x
                rw [hS, CFields.update_app pre _ _ _ (hpre k (by simp [Fields.names]))]
                simp only [CFields.update, if_true]
                cases f x <;> rfl
              obtain ⟨n1, q1, g1, r1⟩ := a4 bits (b3.trans hbits) v c c0 bs1 _ m a hr hsh hfoc harg hp l1 hb1
              rw [n1] at hb2
              have hpre2 : ∀ k2, some k2 ∈ r.names → (pre.app (.cons (k ++ ss) c .nil)).get (k2 ++ ss) = none := by
                intro k2 hk2
                refine CFields.get_app_none _ _ _ (hpre k2 (by simp [Fields.names, hk2])) ?_
                simp only [CFields.get]
                rw [if_neg]
                intro heq
                rw [List.append_cancel_right heq] at hnd
                exact hnd.1 hk2
              obtain ⟨n2, q2, g2, r2⟩ := b4 bits hbits ss d cs cs0 (pre.app (.cons (k ++ ss) c .nil)) bs2 S
                { m with arg := S (pre.app (.cons (k ++ ss) c cs0)), p := some (a + len1), bare := q1 } (a + len1) hat hsat
                hnd.2 hS hpre2 (by rw [CFields.app_snoc]) rfl l2 hb2
              refine ⟨by simp [n1, n2], q2, g1.trans g2, ?_⟩
              rw [List.map_append, runTops_append, r1]
              simp only [Option.bind_some]
              rw [r2, CFields.app_snoc, Nat.add_assoc]

theorem unpackE (sfx : Str) (e : Elem) : UnpackE sfx e := by
  induction e using Elem.rec (motive_2 := fun fs => UnpackF sfx fs) with
  | prim tc mn mx a =>
    intro hs lb off p hlb
    cases a with
    | none => exact unpackE_int sfx _ tc mn mx (resolve_prim _ _ _ _) hs lb off p hlb
    | some n =>
      simp only [Elem.CSupported] at hs
      obtain ⟨hs | hs, hn⟩ := hs
      · obtain ⟨t, ht⟩ := Option.isSome_iff_exists.mp hs
        refine ⟨_, _, _, genElem_array sfx .unpack ⟨true, lb⟩ off (.text p) tc mn mx n t ht,
          widenLoop_wok _ (loopWidth_cases n) _ hlb, widenLoop_right _ _, ?_⟩
        intro bits hbits v c c0 bs ctx m a hr hsh hf harg hp hlay hb
        obtain ⟨B, hB, hle⟩ := hbits _ rfl
        have hnB : n < 2 ^ B := by
          have h1 := loopWidth_enough n hn
          have h2 := widenLoop_left _ (loopWidth_cases n) _ hlb
          exact Nat.lt_of_lt_of_le h1 (Nat.pow_le_pow_right (by decide) (Nat.le_trans h2 hle))
        simp only [Elem.Repr] at hr
        simp only [Elem.Shape] at hsh
        rcases hr with ⟨t', l, ht', hin, hlen, rfl, rfl⟩ | ⟨s, rfl, _⟩
        · rw [ht] at ht'
          cases ht'
          subst hlen
          rcases hsh with ⟨_, l0, hl0, rfl⟩ | ⟨rfl, _⟩
          · rw [layout_ints tc mn mx t ht l hin] at hlay
            cases hlay
            refine ⟨intsBytes_length t l, ?_⟩
            rw [runTops_loop bits _ _ m B hB hnB]
            have := unpackRounds_ok (p ++ [.idx]) t off (fun l => ctx (.ints l)) (by
              intro i f l
              rw [CVal.update_append, hf]
              simp only [CVal.update, Option.map_map]
              rfl) l l0 [] m a hl0 harg hp hin hb
            rw [intsBytes_length] at this
            exact this
          · simp [TypeCode.integer] at ht
        · simp [TypeCode.integer] at ht
      · subst hs
        refine ⟨_, _, _, genElem_str sfx .unpack ⟨true, lb⟩ off (.text p) mn mx n, hlb, LoopLe.refl _, ?_⟩
        intro bits hbits v c c0 bs ctx m a hr hsh hf harg hp hlay hb
        simp only [Elem.Repr] at hr
        simp only [Elem.Shape] at hsh
        rcases hr with ⟨t', l, ht', _⟩ | ⟨s, _, hlen, rfl, rfl⟩
        · simp [TypeCode.integer] at ht'
        · rcases hsh with ⟨hx, _⟩ | ⟨_, b, hbl, rfl⟩
          · simp [TypeCode.integer] at hx
          · rw [layout_text] at hlay
            cases hlay
            refine ⟨textLayout_length n s, _, BareOk.ite _ _ (n - 1) _ (Nat.sub_le _ _), ?_⟩
            rw [runTops_simple]
            exact unpackStrRel_ok m p n off a s b _ hp hbl (by rw [harg, hf, assignChars_last n s b hbl hlen]; rfl) hb
  | record fs a ih =>
    intro hs lb off p hlb
    cases a with
    | some n => simp [Elem.CSupported] at hs
    | none =>
      simp only [Elem.CSupported] at hs
      obtain ⟨code, len, lb', h1, h2, h3, h4⟩ := ih hs.2 lb off (.text p) hlb
      refine ⟨code, len, lb', by rw [genElem_record]; exact h1, h2, h3, ?_⟩
      intro bits hbits v c c0 bs ctx m a hr hsh hf harg hp hlay hb
      cases v with
      | dict d =>
        cases c with
        | struct cs =>
          cases c0 with
          | struct cs0 =>
            simp only [Elem.Repr] at hr
            simp only [Elem.Shape] at hsh
            simp only [Elem.layout] at hlay
            refine h4 bits hbits [] d cs cs0 .nil bs (fun gs => ctx (.struct gs)) m a (fieldsAt_nil fs d cs hr)
              (shapeAt_nil fs cs0 hsh) hs.1 ?_ (by intro k _; rfl) harg hp hlay hb
            intro i k f gs
            show (ctx (.struct gs)).update i f (p ++ [.dot k]) = _
            rw [CVal.update_append, hf, List.append_nil]
            simp only [CVal.update, Option.map_map]
            rfl
          | _ => simp [Elem.Shape] at hsh
        | _ => simp [Elem.Repr] at hr
      | _ => simp [Elem.Repr] at hr
  | refId i => intro hs; simp [Elem.CSupported] at hs
  | refName i => intro hs; simp [Elem.CSupported] at hs
  | refType nm t _ =>
    intro hs lb off p hlb
    simp only [Elem.CSupported] at hs
    obtain ⟨tc, mn, mx, h1, h2⟩ := hs
    exact unpackE_int sfx _ tc mn mx h1 h2 lb off p hlb
  | nil => exact unpackF_nil sfx
  | cons name e r ihe ihr => exact unpackF_cons sfx name e r ihe ihr

theorem unpackF (sfx : Str) (fs : Fields) : UnpackF sfx fs := by
  induction fs using Fields.rec (motive_1 := fun _ => True) with
  | nil => exact unpackF_nil sfx
  | cons name e r _ ih => exact unpackF_cons sfx name e r (unpackE sfx e) ih
  | _ => trivial

end Apx
