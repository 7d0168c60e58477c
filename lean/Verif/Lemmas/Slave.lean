import Verif.Lemmas.Blocks
/- Lemmas about the loops of the request handlers. -/
namespace Modbus

/-! ### Heap updates -/

theorem block?_lt {h : Heap} {b : BlockRef} {blk : Block} (hb : h.block? b = some blk) :
    b.idx < (h.lists b.list).length := (List.getElem?_eq_some_iff.mp hb).1

@[simp] theorem setBlock_lists_same (h : Heap) (b : BlockRef) (blk : Block) :
    (h.setBlock b blk).lists b.list = (h.lists b.list).set b.idx blk := by simp [Heap.setBlock, Heap.setList]

theorem setBlock_lists_other (h : Heap) (b : BlockRef) (blk : Block) {r : Nat} (hr : r ≠ b.list) :
    (h.setBlock b blk).lists r = h.lists r := by simp [Heap.setBlock, Heap.setList, hr]

@[simp] theorem setBlock_dicts (h : Heap) (b : BlockRef) (blk : Block) : (h.setBlock b blk).dicts = h.dicts := rfl
@[simp] theorem setBlock_nextList (h : Heap) (b : BlockRef) (blk : Block) :
    (h.setBlock b blk).nextList = h.nextList := rfl
@[simp] theorem setBlock_nextDict (h : Heap) (b : BlockRef) (blk : Block) :
    (h.setBlock b blk).nextDict = h.nextDict := rfl

theorem block?_setBlock {h : Heap} {b : BlockRef} {blk : Block} (hb : h.block? b = some blk) (blk' : Block) :
    (h.setBlock b blk').block? b = some blk' := by
  have := block?_lt hb
  simp [Heap.block?, this]

theorem Heap.ext' {h1 h2 : Heap} (a : h1.lists = h2.lists) (b : h1.dicts = h2.dicts)
    (c : h1.nextList = h2.nextList) (d : h1.nextDict = h2.nextDict) : h1 = h2 := by
  cases h1; cases h2; simp_all

@[simp] theorem setBlock_setBlock (h : Heap) (b : BlockRef) (x y : Block) :
    (h.setBlock b x).setBlock b y = h.setBlock b y := by
  refine Heap.ext' ?_ rfl rfl rfl
  funext r
  by_cases hr : r = b.list
  · subst hr; simp
  · simp [setBlock_lists_other _ _ _ hr]

theorem setBlock_self {h : Heap} {b : BlockRef} {blk : Block} (hb : h.block? b = some blk) :
    h.setBlock b blk = h := by
  refine Heap.ext' ?_ rfl rfl rfl
  funext r
  by_cases hr : r = b.list
  · subst hr
    simp only [setBlock_lists_same]
    obtain ⟨hlt, hget⟩ := List.getElem?_eq_some_iff.mp hb
    rw [← hget]; simp
  · simp [setBlock_lists_other _ _ _ hr]

@[simp] theorem withData_withData (b : Block) (d e : List Int) : (b.withData d).withData e = b.withData e := rfl
@[simp] theorem withData_self (b : Block) : b.withData b.data = b := rfl

theorem setMany_congr {d d' : List Int} {o o' : Nat} {v v' : List Int} (h1 : d = d') (h2 : o = o') (h3 : v = v') :
    setMany d o v = setMany d' o' v' := by rw [h1, h2, h3]

theorem setBlock_congr (h : Heap) (b : BlockRef) (blk : Block) {d d' : List Int} (e : d = d') :
    h.setBlock b (blk.withData d) = h.setBlock b (blk.withData d') := by rw [e]

/-! ### `block[i] = v` with observer hooks -/

theorem setItem_quiet {R : Registry} (hR : Quiet R) {h : Heap} {b : BlockRef} {blk : Block}
    (hb : h.block? b = some blk) {i : Int} (h0 : 0 ≤ i) (h1 : i < blk.data.length) (v : Int) :
    setItem R b i v h = (.ok (), h.setBlock b (blk.withData (blk.data.set i.toNat v))) := by
  unfold setItem
  rw [hb]
  simp only [hR "modbus.ModbusBlock.setitem"]
  rw [if_pos ⟨h0, h1⟩]; rfl

theorem callHook_quiet {R : Registry} (hR : Quiet R) (name : String) (a : HookArg) (h : Heap) :
    callHook_ R name a h = (.ok (), h) := by
  simp [callHook_, hR name a]

/-! ### `struct.unpack` of one code -/

theorem unpackSingle_ok {c : Code} {bs : Bytes} (h : bs.length = c.size) :
    unpackSingle c bs = .ok (unpackOne true c bs) := by
  have : structUnpack (be [c]) bs = .ok [unpackOne true c (bs.take c.size)] := by
    simp [structUnpack, calcsize, be, h, unpackCodes]
  rw [unpackSingle, this, ← h, List.take_length]

theorem unpackSingle_error {c : Code} {bs : Bytes} (h : bs.length ≠ c.size) :
    unpackSingle c bs = .error .structError := by
  have : structUnpack (be [c]) bs = .error .structError := by
    simp [structUnpack, calcsize, be, h]
  rw [unpackSingle, this]

/-! ### The register loop -/

/-- register `i` of the payload that starts at `base` -/
def regAt (c : Code) (pdu : Bytes) (base i : Nat) : Int :=
  unpackOne true c (slice pdu (base + 2*i) (base + 2 + 2*i))

theorem regSlice_length (pdu : Bytes) (base i : Nat) :
    (slice pdu (base + 2*i) (base + 2 + 2*i)).length = 2 ↔ base + 2 + 2*i ≤ pdu.length := by
  rw [slice_length]; omega

/-- registers available in the payload for indices `i .. i+n` -/
def regsAvail (pdu : Bytes) (base i n : Nat) : Nat := min n ((pdu.length - base) / 2 - i)

theorem writeRegsLoop_eq {R : Registry} (hR : Quiet R) {c : Code} (hc : c.size = 2) {b : BlockRef} {off : Int}
    (h0 : 0 ≤ off) {pdu : Bytes} {base : Nat} (n i : Nat) (count : Int) {h : Heap} {blk : Block}
    (hb : h.block? b = some blk) (hlen : off + i + n ≤ blk.data.length) :
    writeRegsLoop R c b off pdu base n i count h =
      (if regsAvail pdu base i n = n then .ok (count + n) else .error .structError,
       h.setBlock b (blk.withData (setMany blk.data (off.toNat + i)
         ((List.range (regsAvail pdu base i n)).map (fun k => regAt c pdu base (i + k)))))) := by
  induction n generalizing i count h blk with
  | zero => simp [writeRegsLoop, regsAvail, setMany, setBlock_self hb]
  | succ n ih =>
    rw [writeRegsLoop]
    by_cases hav : base + 2 + 2*i ≤ pdu.length
    · have e1 : regsAvail pdu base i (n+1) = regsAvail pdu base (i+1) n + 1 := by
        unfold regsAvail; omega
      have hs := (regSlice_length pdu base i).mpr hav
      simp only [PyM.bind_apply, PyM.lift_apply, unpackSingle_ok (c := c) (hs.trans hc.symm)]
      rw [setItem_quiet hR hb (by omega) (by omega)]
      simp only
      rw [ih (i+1) (count+1) (blk := blk.withData (blk.data.set (off + ↑i).toNat _)) (block?_setBlock hb _)
        (by simp; omega)]
      simp only [setBlock_setBlock, withData_withData, withData_data, e1, List.range_succ_eq_map, List.map_cons,
        List.map_map, setMany, Nat.add_right_cancel_iff]
      refine Prod.ext ?_ ?_
      · simp only; split
        · congr 1; push_cast; omega
        · rfl
      · simp only
        refine setBlock_congr _ _ _ (setMany_congr ?_ (by omega) ?_)
        · rw [show (off + (i:Int)).toNat = off.toNat + i by omega]; rfl
        · apply List.map_congr_left; intro k _; simp [Function.comp, Nat.add_comm, Nat.add_left_comm]
    · have e1 : regsAvail pdu base i (n+1) = 0 := by unfold regsAvail; omega
      have hs := mt (regSlice_length pdu base i).mp hav
      simp only [PyM.bind_apply, PyM.lift_apply, unpackSingle_error (c := c) (by rw [hc]; exact hs)]
      rw [e1]
      simp [setMany, setBlock_self hb]

/-! ### The coil loops -/

/-- bit `k` of the payload that starts at byte 6, as the loop sees it -/
def coilAt (c : Code) (pdu : Bytes) (k : Nat) : Int :=
  if pyBit (unpackOne true c (slice pdu (6 + k/8) (7 + k/8))) (k % 8) then 1 else 0

theorem writeCoilsInner_eq {R : Registry} (hR : Quiet R) {b : BlockRef} {off bv : Int} (h0 : 0 ≤ off) (q i : Nat)
    (m j : Nat) {h : Heap} {blk : Block} (hb : h.block? b = some blk)
    (hlen : off + q ≤ blk.data.length) (hcnt : 8*i + j ≤ q) :
    writeCoilsInner R b off q bv i (List.range' j m) ((8*i + j : Nat) : Int) h =
      (.ok ((min (8*i + j + m) q : Nat) : Int),
       h.setBlock b (blk.withData (setMany blk.data (off.toNat + (8*i + j))
         ((List.range (min (8*i + j + m) q - (8*i + j))).map (fun k => if pyBit bv (j + k) then 1 else 0))))) := by
  induction m generalizing j h blk with
  | zero =>
    have : min (8*i+j) q = 8*i+j := by omega
    simp [writeCoilsInner, this, setMany, setBlock_self hb]
  | succ m ih =>
    rw [List.range'_succ, writeCoilsInner]
    by_cases hge : 8*i + j ≥ q
    · have e : 8*i+j = q := by omega
      have e2 : min (8*i + j + (m+1)) q = q := by omega
      rw [if_pos (by exact_mod_cast hge), e2, e]
      simp [setMany, setBlock_self hb]
    · rw [if_neg (by exact_mod_cast hge)]
      simp only [PyM.bind_apply]
      rw [setItem_quiet hR hb (by omega) (by omega)]
      simp only
      have e3 : ((8*i + j : Nat) : Int) + 1 = ((8*i + (j+1) : Nat) : Int) := by push_cast; omega
      rw [e3, ih (j+1) (blk := blk.withData (blk.data.set (off + ↑i * 8 + ↑j).toNat _)) (block?_setBlock hb _)
        (by simpa using hlen) (by omega)]
      have e4 : min (8*i + j + (m+1)) q - (8*i+j) = (min (8*i + (j+1) + m) q - (8*i + (j+1))) + 1 := by omega
      simp only [setBlock_setBlock, withData_withData, withData_data, e4, List.range_succ_eq_map, List.map_cons,
        List.map_map, setMany]
      refine Prod.ext ?_ ?_
      · simp only; congr 2; omega
      · simp only
        refine setBlock_congr _ _ _ (setMany_congr ?_ (by omega) ?_)
        · rw [show (off + (i:Int)*8 + (j:Int)).toNat = off.toNat + (8*i + j) by omega]; rfl
        · apply List.map_congr_left; intro k _; simp [Function.comp, Nat.add_comm, Nat.add_left_comm]

/-- one past the last byte index reached by the outer loop -/
def coilEnd (pdu : Bytes) (i m : Nat) : Nat := max i (min (i + m) (pdu.length - 6))

theorem byteSlice_length (pdu : Bytes) (i : Nat) :
    (slice pdu (6+i) (7+i)).length = 1 ↔ i < pdu.length - 6 := by
  rw [slice_length]; omega

theorem writeCoilsOuter_eq {R : Registry} (hR : Quiet R) {c : Code} (hc : c.size = 1) {b : BlockRef} {off : Int}
    (h0 : 0 ≤ off) (q : Nat) {pdu : Bytes} (m i : Nat) {h : Heap} {blk : Block} (hb : h.block? b = some blk)
    (hlen : off + q ≤ blk.data.length) :
    writeCoilsOuter R c b off q pdu (List.range' i m) ((min (8*i) q : Nat) : Int) h =
      (if coilEnd pdu i m < i + m ∧ 8 * coilEnd pdu i m < q then .error .structError
         else .ok ((min (8*(i+m)) q : Nat) : Int),
       h.setBlock b (blk.withData (setMany blk.data (off.toNat + min (8*i) q)
         ((List.range (min (8 * coilEnd pdu i m) q - min (8*i) q)).map (fun k => coilAt c pdu (8*i + k)))))) := by
  induction m generalizing i h blk with
  | zero =>
    have e1 : coilEnd pdu i 0 = i := by unfold coilEnd; omega
    simp [writeCoilsOuter, e1, setMany, setBlock_self hb]
  | succ m ih =>
    rw [List.range'_succ, writeCoilsOuter]
    by_cases hge : min (8*i) q ≥ q
    · have e : min (8*i) q = q := by omega
      have hci : i ≤ coilEnd pdu i (m+1) := by unfold coilEnd; omega
      rw [if_pos (by exact_mod_cast hge), if_neg (by omega), e]
      have e2 : min (8 * coilEnd pdu i (m+1)) q - q = 0 := by omega
      have e3 : min (8 * (i + (m+1))) q = q := by omega
      rw [e2, e3]
      simp [setMany, setBlock_self hb]
    · rw [if_neg (by exact_mod_cast hge)]
      by_cases hav : i < pdu.length - 6
      · have hs := (byteSlice_length pdu i).mpr hav
        simp only [PyM.bind_apply, PyM.lift_apply, unpackSingle_ok (c := c) (hs.trans hc.symm)]
        have e0 : min (8*i) q = 8*i + 0 := by omega
        rw [e0, List.range_eq_range', writeCoilsInner_eq hR h0 q i 8 0 hb hlen (by omega)]
        simp only
        have e3 : min (8*i + 0 + 8) q = min (8*(i+1)) q := by omega
        rw [e3, ih (i+1) (blk := blk.withData _) (block?_setBlock hb _) (by simpa using hlen)]
        have e4 : coilEnd pdu i (m+1) = coilEnd pdu (i+1) m := by unfold coilEnd; omega
        have e5 : i + 1 + m = i + (m+1) := by omega
        simp only [setBlock_setBlock, withData_withData, withData_data, e4, e5]
        refine Prod.ext rfl ?_
        simp only
        refine setBlock_congr _ _ _ ?_
        have hle : min (8*(i+1)) q ≤ min (8 * coilEnd pdu (i+1) m) q := by
          have : i + 1 ≤ coilEnd pdu (i+1) m := by unfold coilEnd; omega
          omega
        have e6 : min (8 * coilEnd pdu (i+1) m) q - (8*i + 0) =
            (min (8*(i+1)) q - (8*i+0)) + (min (8 * coilEnd pdu (i+1) m) q - min (8*(i+1)) q) := by omega
        rw [e6, List.range_add, List.map_append, setMany_append]
        have hfirst : (List.range (min (8*(i+1)) q - (8*i+0))).map
              (fun k => (if pyBit (unpackOne true c (slice pdu (6+i) (7+i))) (0 + k) then 1 else 0 : Int)) =
            (List.range (min (8*(i+1)) q - (8*i+0))).map (fun k => coilAt c pdu (8*i + k)) := by
          apply List.map_congr_left
          intro k hk
          have hk' := List.mem_range.mp hk
          have h8 : (8*i + k) / 8 = i := by omega
          have h9 : (8*i + k) % 8 = k := by omega
          simp [coilAt, h8, h9]
        rw [hfirst]
        refine setMany_congr rfl ?_ ?_
        · simp; omega
        · rw [List.map_map]
          apply List.map_congr_left
          intro k hk
          have hk' := List.mem_range.mp hk
          simp only [Function.comp]
          congr 1; omega
      · have hs := mt (byteSlice_length pdu i).mp hav
        simp only [PyM.bind_apply, PyM.lift_apply, unpackSingle_error (c := c) (by rw [hc]; exact hs)]
        have e1 : coilEnd pdu i (m+1) = i := by unfold coilEnd; omega
        rw [e1, if_pos (by omega)]
        simp [setMany, setBlock_self hb]

end Modbus
