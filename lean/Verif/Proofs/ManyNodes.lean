import Verif.Spec.ManyNodes
import Verif.Proofs.Session
import Verif.Props.FileManager

/-! Several nodes in one file manager (C103). -/

namespace Apx.Manager
open FileMap

variable {H : Type}

/-! ### Files side by side -/

theorem slot_ge (b n : Nat) (hb : 0 < b) : n ≤ slot b n := by
  unfold slot
  have h1 := Nat.div_add_mod (n + (b - 1)) b
  have h2 := Nat.mod_lt (n + (b - 1)) hb
  have h3 : (n + (b - 1)) / b * b = b * ((n + (b - 1)) / b) := Nat.mul_comm _ _
  omega

theorem slot_mod (b n : Nat) : slot b n % b = 0 := by
  unfold slot
  exact Nat.mul_mod_left ..

/-- Where the next file goes. -/
def endOf (b : Nat) : Nat → List Nat → Nat
  | a, [] => a
  | a, n :: ns => endOf b (a + slot b n) ns

theorem sideBySide_append (b : Nat) (l : List Nat) (n : Nat) : ∀ a,
    sideBySide b a (l ++ [n]) = sideBySide b a l ++ [endOf b a l] := by
  induction l with
  | nil => intro a; rfl
  | cons x l ih => intro a; simp only [List.cons_append, sideBySide, endOf, ih]

theorem endOf_append (b : Nat) (l : List Nat) (n : Nat) : ∀ a,
    endOf b a (l ++ [n]) = endOf b a l + slot b n := by
  induction l with
  | nil => intro a; rfl
  | cons x l ih => intro a; simp only [List.cons_append, endOf, ih]

theorem room_append (b stop : Nat) (l l' : List Nat) : ∀ a,
    Room b stop a (l ++ l') ↔ Room b stop a l ∧ Room b stop (endOf b a l) l' := by
  induction l with
  | nil => intro a; simp [Room, endOf]
  | cons x l ih => intro a; simp only [List.cons_append, Room, endOf, ih, and_assoc]

theorem endOf_ge (b : Nat) (l : List Nat) : ∀ a, a ≤ endOf b a l := by
  induction l with
  | nil => intro a; exact Nat.le_refl _
  | cons x l ih => intro a; exact Nat.le_trans (Nat.le_add_right ..) (ih _)

theorem sideBySide_bounds (b stop : Nat) (hb : 0 < b) (l : List Nat) (hpos : ∀ n ∈ l, 0 < n) : ∀ a,
    Room b stop a l → ∀ x ∈ sideBySide b a l, a ≤ x ∧ x < stop ∧ x < endOf b a l := by
  induction l with
  | nil => intro a _ x hx; cases hx
  | cons n l ih =>
    intro a hr x hx
    have h0 := slot_ge b n hb
    have h1 := hpos n (by simp)
    rcases List.mem_cons.mp hx with rfl | hx
    · have h2 := hr.1
      have h3 := endOf_ge b l (x + slot b n)
      refine ⟨Nat.le_refl _, by omega, ?_⟩
      simp only [endOf]
      omega
    · obtain ⟨g1, g2, g3⟩ := ih (fun n hn => hpos n (by simp [hn])) _ hr.2 x hx
      exact ⟨by omega, g2, g3⟩

theorem sideBySide_length (b : Nat) (l : List Nat) : ∀ a, (sideBySide b a l).length = l.length := by
  induction l with
  | nil => intro a; rfl
  | cons n l ih => intro a; simp only [sideBySide, List.length_cons, ih]

theorem sideBySide_mod (b : Nat) (l : List Nat) : ∀ a, a % b = 0 → endOf b a l % b = 0 := by
  induction l with
  | nil => intro a h; exact h
  | cons n l ih =>
    intro a h
    exact ih _ (by rw [Nat.add_mod, h, slot_mod]; simp)

theorem align_slot (b : Nat) (hb : 0 < b) (a n : Nat) (ha : a % b = 0) :
    ((a : Int) + n + b - 1) - ((a : Int) + n + b - 1) % b = ((a + slot b n : Nat) : Int) := by
  have e : (a : Int) + n + b - 1 = ((a + (n + (b - 1)) : Nat) : Int) := by omega
  rw [e]
  obtain ⟨q, rfl⟩ := Nat.dvd_of_mod_eq_zero ha
  rw [← Int.natCast_emod, Nat.mul_add_mod]
  unfold slot
  have h1 := Nat.div_add_mod (n + (b - 1)) b
  have h3 : (n + (b - 1)) / b * b = b * ((n + (b - 1)) / b) := Nat.mul_comm _ _
  omega

/-! ### Placing a file -/

theorem bisect_split (L R : List Int) (x : Int) (hs : (L ++ R).Pairwise (· ≤ ·)) (hL : ∀ k ∈ L, k < x)
    (hR : ∀ k ∈ R, x ≤ k) : bisectLeft (L ++ R) x = L.length := by
  obtain ⟨h1, h2, h3⟩ := bisectLeft_spec (L ++ R) x hs
  rcases Nat.lt_trichotomy (bisectLeft (L ++ R) x) L.length with h | h | h
  · have hj : bisectLeft (L ++ R) x < (L ++ R).length := by rw [List.length_append]; omega
    have := h3 _ hj (Nat.le_refl _)
    rw [List.getElem_append_left h] at this
    have := hL _ (List.getElem_mem h)
    omega
  · exact h
  · have hj : L.length < (L ++ R).length := by omega
    have := h2 _ hj h
    rw [List.getElem_append_right (Nat.le_refl _)] at this
    have := hR _ (List.getElem_mem (by rw [List.length_append] at hj; omega : L.length - L.length < R.length))
    omega

theorem view_get (files : List FObj) (m : MapRef) (k : Nat) :
    (m.view files).items[k]? = m.ids[k]?.map (ent files) := by
  simp [MapRef.view]

/-- Attaching a file that gets the address `p` between the files at `L` and those at `R`. -/
theorem attach_between (s : Mgr H) (i : Nat) (o : FObj) (ho : s.files[i]? = some o) (ha : o.address = none)
    (hlaid : Laid (s.localMap.view s.files)) (hpos : 0 < o.length) (hi : i ∉ s.localMap.ids)
    (L R : List Int) (LI RI : List Nat) (hm : s.localMap = ⟨L ++ R, LI ++ RI⟩) (hlen : LI.length = L.length)
    (p : Int) (hL : ∀ k ∈ L, k < p) (hR : ∀ k ∈ R, p ≤ k)
    (hp : placement (s.localMap.view s.files) (regionOf o.name).start (regionOf o.name).stop
      (regionOf o.name).align = .ok (some p))
    (hfit : p + o.length ≤ (regionOf o.name).stop) :
    ∃ s', attachLocalFile s i = (s', none) ∧
      s' = { s with
        localMap := ⟨L ++ p :: R, LI ++ i :: RI⟩
        files := s.files.modify i fun o => { o with address := some p, hasManager := true } } ∧
      Laid (s'.localMap.view s'.files) := by
  have h1 := attach_eq s i o ho ha p (regionOf o.name).stop (by
    rw [assignDefault_region]
    have hn : (ent s.files i).name = o.name := by rw [ent_some ho]
    rw [hn, assign_region, hp]
    simp only
    rw [show (ent s.files i).length = o.length by rw [ent_some ho]])
  rw [if_pos hfit] at h1
  have hsort := hlaid.inv.sorted
  simp only [MapRef.view, hm] at hsort
  have hb : bisectLeft s.localMap.keys p = L.length := by
    rw [hm]
    exact bisect_split L R p hsort hL hR
  rw [hb] at h1
  have e1 : s.localMap.keys.insertIdx L.length p = L ++ p :: R := by
    rw [hm, insertIdx_take_drop _ _ _ (by simp)]; simp
  have e2 : s.localMap.ids.insertIdx L.length i = LI ++ i :: RI := by
    rw [hm, insertIdx_take_drop _ _ _ (by simp [← hlen]), ← hlen]; simp
  rw [e1, e2] at h1
  refine ⟨_, h1, rfl, ?_⟩
  rcases attach_cases s i with he | ⟨o', a, k, ho', hor, he, hk, hins⟩
  · exfalso
    rw [h1] at he
    have := congrArg (fun s => s.localMap.ids) he
    simp only [hm] at this
    have := congrArg List.length this
    simp at this
  · rw [h1] at he
    have hf := (Prod.mk.inj he).1
    have hl := laid_insert hlaid (by rw [ent_some ho]; exact ha) (by rw [ent_some ho]; exact hpos) hins
    rw [hf]
    have : (MapRef.view (s.files.modify i fun o => { o with address := some a, hasManager := true })
        ⟨s.localMap.keys.insertIdx k a, s.localMap.ids.insertIdx k i⟩) =
        ⟨s.localMap.keys.insertIdx k a,
          (s.localMap.view s.files).items.insertIdx k { ent s.files i with address := some a }⟩ := by
      simp only [MapRef.view, map_insertIdx']
      congr 1
      have e3 : ent (s.files.modify i fun o => { o with address := some a, hasManager := true }) i =
          { ent s.files i with address := some a } := by
        rw [ent_some (modify_get _ _ _ o ho), ent_some ho]; rfl
      rw [e3]
      congr 1
      apply List.map_congr_left
      intro j hj
      unfold ent
      rw [modify_ne _ _ _ _ (fun h => hi (by rw [h]; exact hj))]
    simp only
    rw [this]
    exact hl

/-! ### The manager while nodes are given to it -/

/-- The files `os` and `ds` are attached, side by side; nothing else has happened to the file objects. -/
structure Attached (files : List FObj) (os ds : List Nat) (s : Mgr H) : Prop where
  map : s.localMap = ⟨(sideBySide 1024 0 (os.map (fileSize files)) ++
    sideBySide 1048576 67108864 (ds.map (fileSize files))).map Int.ofNat, os ++ ds⟩
  laid : Laid (s.localMap.view s.files)
  room : Room 1024 67108864 0 (os.map (fileSize files)) ∧ Room 1048576 536870912 67108864 (ds.map (fileSize files))
  others : ∀ i, i ∉ os ++ ds → s.files[i]? = files[i]?
  same : ∀ (i : Nat) (o : FObj), files[i]? = some o → ∃ (a : Option Int) (m : Bool),
    s.files[i]? = some { o with address := a, hasManager := m }
  queue : s.queue = []
  remote : s.remoteMap = ⟨[], []⟩
  valid : ∀ i ∈ os ++ ds, ∃ o, files[i]? = some o ∧ 0 < o.length

theorem Attached.pos {files : List FObj} {os ds : List Nat} {s : Mgr H} (h : Attached files os ds s) :
    (∀ n ∈ os.map (fileSize files), 0 < n) ∧ (∀ n ∈ ds.map (fileSize files), 0 < n) := by
  have : ∀ i ∈ os ++ ds, 0 < fileSize files i := by
    intro i hi
    obtain ⟨o, ho, hl⟩ := h.valid i hi
    unfold fileSize
    rw [ho]
    exact hl
  constructor <;> intro n hn <;> obtain ⟨i, hi, rfl⟩ := List.mem_map.mp hn <;> exact this i (by simp [hi])

/-- The items of the map have the addresses of the plan. -/
theorem Attached.item {files : List FObj} {os ds : List Nat} {s : Mgr H} (h : Attached files os ds s) (k : Nat)
    (j : Nat) (a : Int) (hj : s.localMap.ids[k]? = some j) (ha : s.localMap.keys[k]? = some a) :
    (s.localMap.view s.files).items[k]? = some (ent s.files j) ∧ (ent s.files j).address = some a ∧
      (ent s.files j).length = Manager.fileSize files j := by
  have h1 : (s.localMap.view s.files).items[k]? = some (ent s.files j) := by rw [view_get, hj]; rfl
  refine ⟨h1, ?_, ?_⟩
  · have := congrArg (·[k]?) h.laid.inv.agree
    simp only [List.getElem?_map, h1] at this
    rw [show (s.localMap.view s.files).keys = s.localMap.keys from rfl, ha] at this
    simpa using this
  · have hm : j ∈ os ++ ds := by
      have := List.mem_of_getElem? hj
      rwa [h.map] at this
    obtain ⟨o, ho, -⟩ := h.valid j hm
    obtain ⟨b, m, hb⟩ := h.same j o ho
    rw [ent_some hb]
    unfold fileSize
    rw [ho]
    rfl

theorem attached_start (files : List FObj) (bo : Char) : Attached files [] [] (start files bo : Mgr H) :=
  ⟨rfl, laid_empty, ⟨trivial, trivial⟩, fun _ _ => rfl, fun _ o h => ⟨o.address, o.hasManager, h⟩, rfl, rfl,
    by simp⟩

theorem region_out (name : Str) : regionOf (name ++ ".out".toList) = ⟨0, 67108864, 1024⟩ := by
  unfold regionOf
  rw [if_pos (.inr (List.suffix_append ..))]

theorem region_apx (name : Str) : regionOf (name ++ ".apx".toList) = ⟨67108864, 536870912, 1048576⟩ := by
  have h := @ends_other name
  unfold endsWith at h
  unfold regionOf
  rw [if_neg, if_pos (List.suffix_append ..)]
  rw [← List.isSuffixOf_iff_suffix, ← List.isSuffixOf_iff_suffix, h.1, h.2]
  simp

/-- The state after an attachment at `p`, in general. -/
theorem Attached.extend {files : List FObj} {os ds os' ds' : List Nat} {s : Mgr H} (h : Attached files os ds s)
    (i : Nat) (o : FObj) (hi : i ∉ os ++ ds) (ho : files[i]? = some o) (hpos : 0 < o.length) (p : Int)
    (m : MapRef) (hl : Laid (m.view (s.files.modify i fun o => { o with address := some p, hasManager := true })))
    (hm : m = ⟨(sideBySide 1024 0 (os'.map (fileSize files)) ++
      sideBySide 1048576 67108864 (ds'.map (fileSize files))).map Int.ofNat, os' ++ ds'⟩)
    (hr : Room 1024 67108864 0 (os'.map (fileSize files)) ∧ Room 1048576 536870912 67108864 (ds'.map (fileSize files)))
    (hmem : ∀ j, j ∈ os' ++ ds' ↔ j ∈ os ++ ds ∨ j = i) :
    Attached files os' ds' { s with
      localMap := m
      files := s.files.modify i fun o => { o with address := some p, hasManager := true } } := by
  refine ⟨hm, hl, hr, ?_, ?_, h.queue, h.remote, ?_⟩
  · intro j hj
    rw [hmem] at hj
    simp only
    rw [modify_ne _ _ _ _ (fun e => hj (.inr e.symm))]
    exact h.others j (fun e => hj (.inl e))
  · intro j oj hj
    obtain ⟨a, b, hs⟩ := h.same j oj hj
    simp only
    by_cases hij : i = j
    · subst hij
      exact ⟨some p, true, by rw [modify_get _ _ _ _ hs]⟩
    · rw [modify_ne _ _ _ _ hij]
      exact ⟨a, b, hs⟩
  · intro j hj
    rcases (hmem j).mp hj with hj | rfl
    · exact h.valid j hj
    · exact ⟨o, ho, hpos⟩

theorem Attached.out {files : List FObj} {os ds : List Nat} {s : Mgr H} (h : Attached files os ds s) (i : Nat)
    (hi : i ∉ os ++ ds) (hf : NewFile files i .output ".out".toList) (hor : os ≠ [] ∨ ds = [])
    (hroom : Room 1024 67108864 0 ((os ++ [i]).map (fileSize files))) :
    ∃ s', attachLocalFile s i = (s', none) ∧ Attached files (os ++ [i]) ds s' ∧ s'.requested = s.requested ∧
      s'.byteOrder = s.byteOrder := by
  obtain ⟨o, ho, hk, ⟨name, hn⟩, hpos, ha, -⟩ := hf.exists'
  have hsi : s.files[i]? = some o := by rw [h.others i hi]; exact ho
  have hsize : fileSize files i = o.length := by unfold fileSize; rw [ho]; rfl
  obtain ⟨hp1, hp2⟩ := h.pos
  have hr1 := h.room.1
  have hr2 := h.room.2
  have hroom2 := hroom
  rw [List.map_append, List.map_cons, List.map_nil, room_append] at hroom2
  have hfit := hroom2.2.1
  rw [hsize] at hfit
  have hreg := region_out name
  rw [← hn] at hreg
  have hb1 := sideBySide_bounds 1024 67108864 (by decide) _ hp1 0 hr1
  have hb2 := sideBySide_bounds 1048576 536870912 (by decide) _ hp2 67108864 hr2
  obtain ⟨s', g1, g2, g3⟩ := attach_between s i o hsi ha h.laid hpos (by rw [h.map]; exact hi)
    ((sideBySide 1024 0 (os.map (fileSize files))).map Int.ofNat)
    ((sideBySide 1048576 67108864 (ds.map (fileSize files))).map Int.ofNat) os ds (by rw [h.map, List.map_append])
    (by simp [sideBySide_length]) (endOf 1024 0 (os.map (fileSize files)) : Nat)
    (by
      intro k hk
      obtain ⟨x, hx, rfl⟩ := List.mem_map.mp hk
      have := (hb1 x hx).2.2
      show (x : Int) < _
      omega)
    (by
      intro k hk
      obtain ⟨x, hx, rfl⟩ := List.mem_map.mp hk
      have := (hb2 x hx).1
      show _ ≤ (x : Int)
      omega)
    (by
      rw [hreg]
      simp only
      by_cases he : os = []
      · subst he
        have : ds = [] := hor.resolve_left (fun h => h rfl)
        subst this
        unfold placement
        rw [if_pos (by simp only [MapRef.view, h.map]; rfl)]
        rfl
      · obtain ⟨os1, j, rfl⟩ : ∃ l j, os = l ++ [j] := ⟨os.dropLast, os.getLast he, (List.dropLast_concat_getLast he).symm⟩
        have hlen := sideBySide_length 1024 (os1.map (fileSize files)) 0
        rw [List.length_map] at hlen
        obtain ⟨it1, it2, it3⟩ := h.item os1.length j ((endOf 1024 0 (os1.map (fileSize files)) : Nat) : Int)
          (by rw [h.map]; simp)
          (by
            rw [h.map]
            simp only [List.map_append, List.map_cons, List.map_nil, sideBySide_append]
            rw [List.append_assoc, List.getElem?_append_right (by simp [hlen])]
            simp [hlen])
        have hbis : bisectLeft (s.localMap.view s.files).keys ((67108864 : Nat) : Int) = os1.length + 1 := by
          have hs := h.laid.inv.sorted
          simp only [MapRef.view, h.map, List.map_append] at hs ⊢
          have := bisect_split _ _ ((67108864 : Nat) : Int) hs
            (by
              intro k hk
              rw [← List.map_append] at hk
              obtain ⟨x, hx, rfl⟩ := List.mem_map.mp hk
              have := (hb1 x (by simpa using hx)).2.1
              show (x : Int) < _
              omega)
            (by
              intro k hk
              obtain ⟨x, hx, rfl⟩ := List.mem_map.mp hk
              have := (hb2 x hx).1
              show _ ≤ (x : Int)
              omega)
          rw [this]
          simp [sideBySide_length]
        rcases placement_eq h.laid.inv (by
            intro hc; rw [hc] at it1; simp at it1) 0 67108864 1024 (by decide) with ⟨h0, -⟩ | ⟨f, a, q1, q2, q3, q4, q5⟩
        · rw [hbis] at h0; omega
        · rw [hbis, Nat.add_sub_cancel, it1] at q1
          cases q1
          rw [it2] at q3
          cases q3
          rw [q5, it3, if_neg (by omega), List.map_append, List.map_cons, List.map_nil, endOf_append]
          rw [align_slot 1024 (by decide) _ _ (sideBySide_mod _ _ _ (by decide))])
    (by rw [hreg]; simp only; omega)
  refine ⟨s', g1, ?_, by rw [g2], by rw [g2]⟩
  rw [g2] at g3 ⊢
  refine h.extend i o hi ho hpos _ _ g3 ?_ ⟨hroom, hr2⟩ ?_
  · simp [sideBySide_append]
  · intro j
    simp only [List.mem_append, List.mem_cons, List.not_mem_nil, or_false]
    constructor <;> intro hh <;> rcases hh with (hh | hh) | hh <;> simp [hh]

theorem Attached.definition {files : List FObj} {os ds : List Nat} {s : Mgr H} (h : Attached files os ds s) (i : Nat)
    (hi : i ∉ os ++ ds) (hf : NewFile files i .output ".apx".toList)
    (hroom : Room 1048576 536870912 67108864 ((ds ++ [i]).map (fileSize files))) :
    ∃ s', attachLocalFile s i = (s', none) ∧ Attached files os (ds ++ [i]) s' ∧ s'.requested = s.requested ∧
      s'.byteOrder = s.byteOrder := by
  obtain ⟨o, ho, hk, ⟨name, hn⟩, hpos, ha, -⟩ := hf.exists'
  have hsi : s.files[i]? = some o := by rw [h.others i hi]; exact ho
  have hsize : fileSize files i = o.length := by unfold fileSize; rw [ho]; rfl
  obtain ⟨hp1, hp2⟩ := h.pos
  have hr1 := h.room.1
  have hr2 := h.room.2
  have hroom2 := hroom
  rw [List.map_append, List.map_cons, List.map_nil, room_append] at hroom2
  have hfit := hroom2.2.1
  rw [hsize] at hfit
  have hreg := region_apx name
  rw [← hn] at hreg
  have hb1 := sideBySide_bounds 1024 67108864 (by decide) _ hp1 0 hr1
  have hb2 := sideBySide_bounds 1048576 536870912 (by decide) _ hp2 67108864 hr2
  have hge := endOf_ge 1048576 (ds.map (fileSize files)) 67108864
  have hlow : ∀ k ∈ s.localMap.keys, k < ((536870912 : Nat) : Int) ∧
      k < ((endOf 1048576 67108864 (ds.map (fileSize files)) : Nat) : Int) := by
    intro k hk
    rw [h.map] at hk
    obtain ⟨x, hx, rfl⟩ := List.mem_map.mp hk
    show (x : Int) < _ ∧ (x : Int) < _
    rcases List.mem_append.mp hx with hx | hx
    · have := (hb1 x hx).2.1
      omega
    · have := hb2 x hx
      omega
  obtain ⟨s', g1, g2, g3⟩ := attach_between s i o hsi ha h.laid hpos (by rw [h.map]; exact hi)
    s.localMap.keys [] s.localMap.ids [] (by simp) (by rw [h.map]; simp [sideBySide_length])
    (endOf 1048576 67108864 (ds.map (fileSize files)) : Nat)
    (fun k hk => (hlow k hk).2) (by simp)
    (by
      rw [hreg]
      simp only
      by_cases he : s.localMap.ids = []
      · have he2 := he
        rw [h.map] at he2
        simp only [List.append_eq_nil_iff] at he2
        obtain ⟨rfl, rfl⟩ := he2
        unfold placement
        rw [if_pos (by simp only [MapRef.view, h.map]; rfl)]
        rfl
      · have hbis : bisectLeft (s.localMap.view s.files).keys ((536870912 : Nat) : Int) = s.localMap.ids.length := by
          have hs := h.laid.inv.sorted
          have := bisect_split s.localMap.keys [] ((536870912 : Nat) : Int)
            (by rw [List.append_nil]; exact hs) (fun k hk => (hlow k hk).1) (by simp)
          rw [List.append_nil] at this
          simp only [MapRef.view]
          rw [this, h.map]
          simp [sideBySide_length]
        have hne : (s.localMap.view s.files).items ≠ [] := by
          simp only [MapRef.view, ne_eq, List.map_eq_nil_iff]
          exact he
        rcases placement_eq h.laid.inv hne 67108864 536870912 1048576 (by decide) with ⟨h0, -⟩ | ⟨f, a, q1, q2, q3, q4, q5⟩
        · rw [hbis] at h0
          exact absurd (List.length_eq_zero_iff.mp h0) he
        · rw [hbis] at q1
          by_cases hd : ds = []
          · subst hd
            have ho1 : os ≠ [] := by
              intro hc; rw [h.map, hc] at he; simp at he
            obtain ⟨os1, j, rfl⟩ : ∃ l j, os = l ++ [j] :=
              ⟨os.dropLast, os.getLast ho1, (List.dropLast_concat_getLast ho1).symm⟩
            have hlen := sideBySide_length 1024 (os1.map (fileSize files)) 0
            rw [List.length_map] at hlen
            obtain ⟨it1, it2, it3⟩ := h.item os1.length j ((endOf 1024 0 (os1.map (fileSize files)) : Nat) : Int)
              (by rw [h.map]; simp)
              (by
                rw [h.map]
                simp only [List.map_append, List.map_cons, List.map_nil, sideBySide_append]
                rw [List.append_assoc, List.getElem?_append_right (by simp [hlen])]
                simp [hlen])
            rw [h.map] at q1
            simp only [List.append_nil, List.length_append, List.length_cons, List.length_nil, Nat.zero_add,
              Nat.add_sub_cancel] at q1
            rw [h.map] at it1
            simp only [List.append_nil] at it1
            rw [it1] at q1
            cases q1
            rw [it2] at q3
            cases q3
            have := (hb1 (endOf 1024 0 (os1.map (fileSize files))) (by simp [sideBySide_append])).2.1
            rw [q5, if_pos (by omega)]
            rfl
          · obtain ⟨ds1, j, rfl⟩ : ∃ l j, ds = l ++ [j] :=
              ⟨ds.dropLast, ds.getLast hd, (List.dropLast_concat_getLast hd).symm⟩
            have hlen := sideBySide_length 1048576 (ds1.map (fileSize files)) 67108864
            rw [List.length_map] at hlen
            have hlen0 := sideBySide_length 1024 (os.map (fileSize files)) 0
            rw [List.length_map] at hlen0
            obtain ⟨it1, it2, it3⟩ := h.item (os.length + ds1.length) j
              ((endOf 1048576 67108864 (ds1.map (fileSize files)) : Nat) : Int)
              (by
                rw [h.map]
                simp only [← List.append_assoc]
                rw [List.getElem?_append_right (by simp)]
                simp)
              (by
                rw [h.map]
                simp only [List.map_append, List.map_cons, List.map_nil, sideBySide_append]
                simp only [← List.append_assoc]
                rw [List.getElem?_append_right (by simp [hlen, hlen0])]
                simp [hlen, hlen0])
            have e : s.localMap.ids.length - 1 = os.length + ds1.length := by
              rw [h.map]; simp
            rw [e, it1] at q1
            cases q1
            rw [it2] at q3
            cases q3
            have := (endOf_ge 1048576 (ds1.map (fileSize files)) 67108864)
            rw [q5, it3, if_neg (by omega), List.map_append, List.map_cons, List.map_nil, endOf_append]
            rw [align_slot 1048576 (by decide) _ _ (sideBySide_mod _ _ _ (by decide))])
    (by rw [hreg]; simp only; omega)
  refine ⟨s', g1, ?_, by rw [g2], by rw [g2]⟩
  rw [g2] at g3 ⊢
  refine h.extend i o hi ho hpos _ _ g3 ?_ ⟨hr1, hroom⟩ ?_
  · rw [h.map]
    simp [sideBySide_append]
  · intro j
    simp only [List.mem_append, List.mem_cons, List.not_mem_nil, or_false, or_assoc]

/-- A port data file cannot be attached when only definitions are. -/
theorem Attached.refuse {files : List FObj} {ds : List Nat} {s : Mgr H} (h : Attached files [] ds s) (i : Nat)
    (hi : i ∉ ds) (hf : NewFile files i .output ".out".toList) (hd : ds ≠ []) :
    attachLocalFile s i = (s, some .unboundLocal) := by
  obtain ⟨o, ho, hk, ⟨name, hn⟩, hpos, ha, -⟩ := hf.exists'
  have hsi : s.files[i]? = some o := by rw [h.others i (by simpa using hi)]; exact ho
  have hb2 := sideBySide_bounds 1048576 536870912 (by decide) _ h.pos.2 67108864 h.room.2
  have hreg := region_out name
  rw [← hn] at hreg
  have hp : placement (s.localMap.view s.files) 0 67108864 1024 = .ok none := by
    have hne : (s.localMap.view s.files).items ≠ [] := by
      simp only [MapRef.view, ne_eq, List.map_eq_nil_iff, h.map]
      simpa using hd
    have hbis : bisectLeft (s.localMap.view s.files).keys ((67108864 : Nat) : Int) = 0 := by
      have hs := h.laid.inv.sorted
      refine bisect_split [] _ ((67108864 : Nat) : Int) hs (by simp) ?_
      intro k hk
      simp only [h.map] at hk
      obtain ⟨x, hx, rfl⟩ := List.mem_map.mp hk
      have := (hb2 x (by simpa [sideBySide] using hx)).1
      show _ ≤ (x : Int)
      omega
    rcases placement_eq h.laid.inv hne 0 67108864 1024 (by decide) with ⟨-, h0⟩ | ⟨f, a, q1, q2, -⟩
    · exact h0
    · rw [hbis] at q2; omega
  have hn' : (ent s.files i).name = o.name := by rw [ent_some hsi]
  have h1 : (ent s.files i).isApx = true := by rw [ent_some hsi]
  have h2 : (ent s.files i).address = none := by rw [ent_some hsi]; exact ha
  have hd := assignDefault_region (s.localMap.view s.files) (ent s.files i)
  rw [assign_region, hn', hreg] at hd
  simp only at hd
  rw [hp] at hd
  unfold attachLocalFile
  simp only [FileMap.insert, h1, Bool.not_true, Bool.false_eq_true, if_false, h2, hd, error_bind]

/-! ### Whole nodes -/

/-- The requests after one more. -/
def requestName (files : List FObj) (d : List (Str × Nat)) (i : Nat) : List (Str × Nat) :=
  dictSet d (fileName files i) i

theorem Attached.requested {files : List FObj} {os ds : List Nat} {s : Mgr H} (h : Attached files os ds s)
    (d : List (Str × Nat)) : Attached files os ds { s with requested := d } :=
  ⟨h.map, h.laid, h.room, h.others, h.same, h.queue, h.remote, h.valid⟩

theorem Attached.request {files : List FObj} {os ds : List Nat} {s : Mgr H} (h : Attached files os ds s) (n : Option Nat)
    (hv : ∀ i, n = some i → ∃ o, files[i]? = some o) :
    ∃ s', requestOpt s n = (s', none) ∧ Attached files os ds s' ∧
      s'.requested = n.toList.foldl (requestName files) s.requested ∧ s'.byteOrder = s.byteOrder := by
  cases n with
  | none => exact ⟨s, rfl, h, rfl, rfl⟩
  | some i =>
    obtain ⟨o, ho⟩ := hv i rfl
    obtain ⟨a, m, hs⟩ := h.same i o ho
    refine ⟨{ s with requested := dictSet s.requested o.name i }, ?_, h.requested _, ?_, rfl⟩
    · simp only [requestOpt, requestRemoteFile, hs]
    · simp [requestName, fileName, ho]

theorem Attached.node {files : List FObj} {os ds : List Nat} {s : Mgr H} (h : Attached files os ds s) (n : NodeFiles)
    (h1 : ∀ i, n.out = some i → NewFile files i .output ".out".toList ∧ i ∉ os ++ ds)
    (h2 : ∀ i, n.definition = some i → NewFile files i .output ".apx".toList ∧ i ∉ os ++ n.out.toList ++ ds)
    (h3 : ∀ i, n.inp = some i → NewFile files i .input ".in".toList)
    (hor : n.out = none ∨ os ≠ [] ∨ ds = [])
    (hr1 : Room 1024 67108864 0 ((os ++ n.out.toList).map (fileSize files)))
    (hr2 : Room 1048576 536870912 67108864 ((ds ++ n.definition.toList).map (fileSize files))) :
    ∃ s', attachNodeData s n = (s', none) ∧
      Attached files (os ++ n.out.toList) (ds ++ n.definition.toList) s' ∧
      s'.requested = n.inp.toList.foldl (requestName files) s.requested ∧ s'.byteOrder = s.byteOrder := by
  have a1 : ∃ s1, attachOpt s n.out = (s1, none) ∧ Attached files (os ++ n.out.toList) ds s1 ∧
      s1.requested = s.requested ∧ s1.byteOrder = s.byteOrder := by
    cases ho : n.out with
    | none => exact ⟨s, rfl, by simpa using h, rfl, rfl⟩
    | some i =>
      obtain ⟨g1, g2⟩ := h1 i ho
      rw [ho] at hr1 hor
      exact h.out i g2 g1 (hor.resolve_left (by simp)) hr1
  obtain ⟨s1, e1, k1, r1, b1⟩ := a1
  have a2 : ∃ s2, attachOpt s1 n.definition = (s2, none) ∧
      Attached files (os ++ n.out.toList) (ds ++ n.definition.toList) s2 ∧
      s2.requested = s1.requested ∧ s2.byteOrder = s1.byteOrder := by
    cases ho : n.definition with
    | none => exact ⟨s1, rfl, by simpa using k1, rfl, rfl⟩
    | some i =>
      obtain ⟨g1, g2⟩ := h2 i ho
      rw [ho] at hr2
      exact k1.definition i g2 g1 hr2
  obtain ⟨s2, e2, k2, r2, b2⟩ := a2
  obtain ⟨s3, e3, k3, r3, b3⟩ := k2.request n.inp (fun i hi => by
    obtain ⟨o, ho, -⟩ := (h3 i hi).exists'
    exact ⟨o, ho⟩)
  refine ⟨s3, ?_, k3, ?_, by rw [b3, b2, b1]⟩
  · unfold attachNodeData
    rw [e1]
    simp only
    rw [e2]
    exact e3
  · rw [r3, r2, r1]

theorem outs_cons (n : NodeFiles) (ns : List NodeFiles) : outs (n :: ns) = n.out.toList ++ outs ns := by
  unfold outs; rw [List.filterMap_cons]; cases n.out <;> rfl

theorem definitions_cons (n : NodeFiles) (ns : List NodeFiles) :
    definitions (n :: ns) = n.definition.toList ++ definitions ns := by
  unfold definitions; rw [List.filterMap_cons]; cases n.definition <;> rfl

theorem ins_cons (n : NodeFiles) (ns : List NodeFiles) : ins (n :: ns) = n.inp.toList ++ ins ns := by
  unfold ins; rw [List.filterMap_cons]; cases n.inp <;> rfl

theorem Attached.nodes {files : List FObj} (ns : List NodeFiles) : ∀ {os ds : List Nat} {s : Mgr H},
    Attached files os ds s →
    (∀ i ∈ outs ns, NewFile files i .output ".out".toList) →
    (∀ i ∈ definitions ns, NewFile files i .output ".apx".toList) →
    (∀ i ∈ ins ns, NewFile files i .input ".in".toList) →
    (os ++ outs ns ++ (ds ++ definitions ns)).Nodup →
    (outs ns = [] ∨ os ≠ [] ∨ (ds = [] ∧ FirstProvides ns)) →
    Room 1024 67108864 0 ((os ++ outs ns).map (fileSize files)) →
    Room 1048576 536870912 67108864 ((ds ++ definitions ns).map (fileSize files)) →
    ∃ s', attachNodes s ns = (s', none) ∧ Attached files (os ++ outs ns) (ds ++ definitions ns) s' ∧
      s'.requested = (ins ns).foldl (requestName files) s.requested ∧ s'.byteOrder = s.byteOrder := by
  induction ns with
  | nil =>
    intro os ds s h _ _ _ _ _ _ _
    exact ⟨s, rfl, by simpa [outs, definitions] using h, rfl, rfl⟩
  | cons n ns ih =>
    intro os ds s h h1 h2 h3 hnd hor hr1 hr2
    rw [outs_cons] at h1 hnd hor hr1
    rw [definitions_cons] at h2 hnd hr2
    rw [ins_cons] at h3
    rw [← List.append_assoc] at hr1 hr2
    have hr1' := hr1
    have hr2' := hr2
    rw [List.map_append, room_append] at hr1' hr2'
    have hnd2 := hnd
    simp only [List.nodup_append, List.mem_append] at hnd2
    obtain ⟨⟨d1, ⟨d2, d3, d4⟩, d5⟩, ⟨d6, ⟨d7, d8, d9⟩, d10⟩, d11⟩ := hnd2
    obtain ⟨s1, e1, k1, r1, b1⟩ := h.node n
      (fun i hi => ⟨h1 i (by simp [hi]), by
        intro hc
        have hi' : i ∈ n.out.toList := by simp [hi]
        rcases List.mem_append.mp hc with hc | hc
        · exact d5 i hc i (.inl hi') rfl
        · exact d11 i (.inr (.inl hi')) i (.inl hc) rfl⟩)
      (fun i hi => ⟨h2 i (by simp [hi]), by
        intro hc
        have hi' : i ∈ n.definition.toList := by simp [hi]
        rcases List.mem_append.mp hc with hc | hc
        · rcases List.mem_append.mp hc with hc | hc
          · exact d11 i (.inl hc) i (.inr (.inl hi')) rfl
          · exact d11 i (.inr (.inl hc)) i (.inr (.inl hi')) rfl
        · exact d10 i hc i (.inl hi') rfl⟩)
      (fun i hi => h3 i (by simp [hi]))
      (by
        rcases hor with hor | hor | ⟨hor, -⟩
        · rw [List.append_eq_nil_iff] at hor
          left
          cases ho : n.out with
          | none => rfl
          | some i => rw [ho] at hor; simp at hor
        · exact .inr (.inl hor)
        · exact .inr (.inr hor))
      hr1'.1 hr2'.1
    obtain ⟨s2, e2, k2, r2, b2⟩ := ih k1 (fun i hi => h1 i (by simp [hi])) (fun i hi => h2 i (by simp [hi]))
      (fun i hi => h3 i (by simp [hi])) (by simpa [List.append_assoc] using hnd)
      (by
        rcases hor with hor | hor | ⟨-, hor⟩
        · exact .inl (List.append_eq_nil_iff.mp hor).2
        · exact .inr (.inl (by simp [hor]))
        · unfold FirstProvides at hor
          rcases hor with hor | hor
          · right; left
            cases ho : n.out with
            | none => rw [ho] at hor; cases hor
            | some i => simp
          · rw [outs_cons] at hor
            exact .inl (List.append_eq_nil_iff.mp hor).2)
      hr1 hr2
    refine ⟨s2, ?_, ?_, ?_, by rw [b2, b1]⟩
    · unfold attachNodes
      rw [e1]
      exact e2
    · rw [outs_cons, definitions_cons, ← List.append_assoc, ← List.append_assoc]
      exact k2
    · rw [r2, r1, ins_cons, List.foldl_append]

end Apx.Manager
