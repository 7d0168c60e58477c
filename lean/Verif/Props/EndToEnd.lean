import Verif.Props.MasterRead
import Verif.Props.Framing
/-
# Properties C33, C34: a master and a server talking to each other
-/
namespace Modbus
open Spec (word toWord bytesFor packBits wordAt bitAt Fits8 Fits16 FitsReg toByte Call tcpAdu rtuAdu)

/-- a server (its databank and the memories of its slaves) and the bytes on their way back to the master -/
structure Net where
  db : Databank
  heap : Heap
  back : Bytes

/-- A link that delivers every message unchanged to a modbus-tk server and brings its response back (the transports
    themselves are the subject of C29-C31).  An empty response or None is not sent (modbus_tcp.py:355-357,
    modbus_rtu.py:258-261); an exception inside the server leaves the master without response. -/
def serverLink (R : Registry) (mac : Mac) : Chan Net where
  doOpen := fun s => (.ok (), s)
  doClose := fun s => (.ok true, s)
  send := fun m s =>
    match serverHandle R mac s.db m s.heap with
    | (.ok r, h) => (.ok (), { s with heap := h, back := s.back ++ r.getD [] })
    | (.error _, h) => (.ok (), { s with heap := h })
  recv := fun _ s => if s.back = [] then (.error .timeout, s) else (.ok s.back, { s with back := [] })

theorem serverHandle_quiet {R : Registry} (hR : Quiet R) (mac : Mac) (db : Databank) (request : Bytes) :
    serverHandle R mac db request = dbHandle R mac db request := by
  funext h
  simp only [serverHandle, PyM.bind_apply, PyM.lift_apply, hR _ _, replaceIfTruthy, Option.getD_some]
  cases (dbHandle R mac db request h) with
  | mk r h' => cases r <;> simp

/-! ### what `execute` makes of the specified reply -/

theorem toWord_toNat {v : Int} (h : Fits16 v) : ((toWord v).toNat : Int) = v := by
  have := h.1; have := h.2
  rw [toWord, UInt16.toNat_ofNat']
  omega

theorem toWord_mod (v : Int) : ((toWord v).toNat : Int) = v % 65536 := by
  rw [toWord, UInt16.toNat_ofNat']
  omega

theorem wordAt_word (x : UInt16) (rest : Bytes) : wordAt (word x ++ rest) 0 = x := by
  have := wordAt_flatMap [x] (i := 0) (by simp)
  simp only [List.flatMap_cons, List.flatMap_nil, List.append_nil, List.getElem_cons_zero] at this
  simpa [wordAt, word] using this

theorem unpack_two (x y : UInt16) : structUnpack (be [Code.H, Code.H]) (word x ++ word y) = .ok [(x.toNat : Int), y.toNat] := by
  have := unpack_words 2 (word x ++ word y)
  rw [if_pos (by simp [word])] at this
  have e : (List.range 2).map (fun i => ((wordAt (word x ++ word y) i).toNat : Int)) = [(x.toNat : Int), y.toNat] := by
    have := range_wordAt_flatMap [x, y]
    simpa using this
  rw [e] at this
  exact this

theorem unpack_three (x y z : UInt16) :
    structUnpack (be [Code.H, Code.H, Code.H]) (word x ++ word y ++ word z) = .ok [(x.toNat : Int), y.toNat, z.toNat] := by
  have := unpack_words 3 (word x ++ word y ++ word z)
  rw [if_pos (by simp [word])] at this
  have e : (List.range 3).map (fun i => ((wordAt (word x ++ word y ++ word z) i).toNat : Int)) =
      [(x.toNat : Int), y.toNat, z.toNat] := by
    have := range_wordAt_flatMap [x, y, z]
    simpa using this
  rw [e] at this
  exact this

theorem analyse_echo2 (a : ExecArgs) (e : Bytes) (n : Int) (hraw : a.returnsRaw = false) (h20 : a.functionCode ≠ 20)
    (h43 : a.functionCode ≠ 43) (fc : UInt8) (hfc : fc.toNat ≤ 128) (x y : UInt16) :
    analyse a ⟨e, false, 0, some (be [Code.H, Code.H]), n⟩ (fc :: (word x ++ word y)) = .ok (.values [(x.toNat : Int), y.toNat]) := by
  rw [show fc :: (word x ++ word y) = fc :: UInt8.ofNat (x.toNat / 256) :: (UInt8.ofNat (x.toNat % 256) :: word y) from rfl]
  rw [analyse_normal _ _ _ _ _ hfc, if_neg (by simp), if_neg h43]
  rw [show UInt8.ofNat (x.toNat / 256) :: (UInt8.ofNat (x.toNat % 256) :: word y) = word x ++ word y from rfl]
  unfold analyseData
  rw [if_neg (by simp [hraw]), Option.getD_some, unpack_two, except_bind_ok]
  rw [if_neg (show ¬ a.functionCode = defines.READ_FILE_RECORD from h20)]
  rfl

theorem analyse_echo3 (a : ExecArgs) (e : Bytes) (n : Int) (hraw : a.returnsRaw = false) (h20 : a.functionCode ≠ 20)
    (h43 : a.functionCode ≠ 43) (fc : UInt8) (hfc : fc.toNat ≤ 128) (x y z : UInt16) :
    analyse a ⟨e, false, 0, some (be [Code.H, Code.H, Code.H]), n⟩ (fc :: (word x ++ word y ++ word z)) =
      .ok (.values [(x.toNat : Int), y.toNat, z.toNat]) := by
  rw [show fc :: (word x ++ word y ++ word z) =
    fc :: UInt8.ofNat (x.toNat / 256) :: (UInt8.ofNat (x.toNat % 256) :: (word y ++ word z)) from rfl]
  rw [analyse_normal _ _ _ _ _ hfc, if_neg (by simp), if_neg h43]
  rw [show UInt8.ofNat (x.toNat / 256) :: (UInt8.ofNat (x.toNat % 256) :: (word y ++ word z)) = word x ++ word y ++ word z from rfl]
  unfold analyseData
  rw [if_neg (by simp [hraw]), Option.getD_some, unpack_three, except_bind_ok]
  rw [if_neg (show ¬ a.functionCode = defines.READ_FILE_RECORD from h20)]
  rfl

/-- a call's answer as the outcome of `execute` -/
def outcome : Except UInt8 (List Int) → Except PyErr ExecResult
  | .error code => .error (.modbusError code.toNat)
  | .ok vs => .ok (.values vs)

theorem toReq_fc_lt (c : Call) : 0 < c.toReq.fc.toNat ∧ c.toReq.fc.toNat < 128 := by
  cases c <;> simp [Call.toReq, Spec.Req.fc]

theorem readBits_inv {t : Spec.Table} {a q : UInt16} {d : Bytes} (h : Spec.readBits t a q = .ok d) :
    q.toNat ≤ 2000 ∧ d = UInt8.ofNat (bytesFor q.toNat) :: packBits ((t.read a.toNat q.toNat).map (fun v => v != 0)) := by
  unfold Spec.readBits at h
  split at h
  · cases h
  · split at h
    · cases h
    · cases h; exact ⟨by omega, rfl⟩

theorem readRegs_inv {t : Spec.Table} {a q : UInt16} {d : Bytes} (h : Spec.readRegs t a q = .ok d) :
    q.toNat ≤ 125 ∧ d = UInt8.ofNat (2 * q.toNat) :: (t.read a.toNat q.toNat).flatMap (fun v => word (toWord v)) := by
  unfold Spec.readRegs at h
  split at h
  · cases h
  · split at h
    · cases h
    · cases h; exact ⟨by omega, rfl⟩

theorem analyse_bits_reply (a : ExecArgs) {adr q : Int} (ha : Fits16 adr) (hq : Fits16 q) (e : Bytes) (n : Int)
    (hraw : a.returnsRaw = false) (h20 : a.functionCode ≠ 20) (fc : UInt8) (hfc : fc.toNat ≤ 128) {t : Spec.Table} {d : Bytes}
    (h : Spec.readBits t (toWord adr) (toWord q) = .ok d) :
    analyse a ⟨e, true, q, some (be (List.replicate (nbBytes q).toNat Code.B)), n⟩ (fc :: d) =
      .ok (.values ((t.read adr q.toNat).map (fun v => if v ≠ 0 then 1 else 0))) := by
  obtain ⟨hle, rfl⟩ := readBits_inv h
  have hqn : (toWord q).toNat = q.toNat := by have := toWord_toNat hq; omega
  have han : ((toWord adr).toNat : Int) = adr := toWord_toNat ha
  rw [hqn, han]
  rw [hqn] at hle
  have hlen : (packBits ((t.read adr q.toNat).map (fun v => v != 0))).length = bytesFor q.toNat := by
    rw [packBits_length]; simp [Spec.Table.read]
  refine (analyse_bits a q hq _ e n hraw h20 _).mpr ⟨fc, _, _, rfl, hfc, ?_, hlen, ?_⟩
  · rw [hlen, UInt8.toNat_ofNat', Nat.mod_eq_of_lt]
    simp only [bytesFor]; omega
  · have := range_bitAt_packBits ((t.read adr q.toNat).map (fun v => v != 0))
    rw [List.length_map, show (t.read adr q.toNat).length = q.toNat by simp [Spec.Table.read]] at this
    rw [this, List.map_map]
    congr 2
    funext v
    simp only [Function.comp]
    by_cases hv : v = 0 <;> simp [hv]

theorem analyse_regs_reply (a : ExecArgs) {adr q : Int} (ha : Fits16 adr) (hq : Fits16 q) (e : Bytes) (n : Int)
    (hraw : a.returnsRaw = false) (h20 : a.functionCode ≠ 20) (fc : UInt8) (hfc : fc.toNat ≤ 128) {t : Spec.Table} {d : Bytes}
    (h : Spec.readRegs t (toWord adr) (toWord q) = .ok d) :
    analyse a ⟨e, true, 0, some (be (List.replicate q.toNat Code.H)), n⟩ (fc :: d) =
      .ok (.values ((t.read adr q.toNat).map (fun v => v % 65536))) := by
  obtain ⟨hle, rfl⟩ := readRegs_inv h
  have hqn : (toWord q).toNat = q.toNat := by have := toWord_toNat hq; omega
  have han : ((toWord adr).toNat : Int) = adr := toWord_toNat ha
  rw [hqn, han]
  rw [hqn] at hle
  have efm : (t.read adr q.toNat).flatMap (fun v => word (toWord v)) = ((t.read adr q.toNat).map toWord).flatMap word := by
    simp [List.flatMap_map]
  have hlr : ((t.read adr q.toNat).map toWord).length = q.toNat := by simp [Spec.Table.read]
  refine (analyse_regs a q _ e n hraw h20 _).mpr ⟨fc, _, _, rfl, hfc, ?_, ?_, ?_⟩
  · rw [efm, flatMap_word_length, hlr, UInt8.toNat_ofNat', Nat.mod_eq_of_lt (by omega)]
  · rw [efm, flatMap_word_length, hlr]
  · rw [efm]
    have := range_wordAt_flatMap ((t.read adr q.toNat).map toWord)
    rw [hlr] at this
    rw [this, List.map_map]
    congr 2
    funext v
    exact (toWord_mod v).symm

/-- `execute` turns the specified reply into the specified answer. -/
theorem analyse_reply (u : Bool) (m : Spec.Mem) (c : Call) (hc : c.Fits) (slave : Int) :
    analyse (c.args slave) c.prepared ((Spec.exec u m c.toReq).1.encode c.toReq.fc) = outcome (c.answer u m) := by
  obtain ⟨f0, f1⟩ := toReq_fc_lt c
  cases he : (Spec.exec u m c.toReq).1 with
  | exc code =>
    rw [Spec.Reply.encode, analyse_exception _ _ _ _ _ (by
      rw [UInt8.toNat_add, show (128 : UInt8).toNat = 128 from rfl]; omega)]
    simp only [Call.answer, he]
    rfl
  | ok d =>
    simp only [Call.answer, he, Spec.Reply.encode, outcome]
    cases c with
    | readCoils a q => exact analyse_bits_reply _ hc.1 hc.2 _ _ rfl (by simp [Call.args]) 1 (by decide) he
    | readDiscrete a q => exact analyse_bits_reply _ hc.1 hc.2 _ _ rfl (by simp [Call.args]) 2 (by decide) he
    | readHolding a q => exact analyse_regs_reply _ hc.1 hc.2 _ _ rfl (by simp [Call.args]) 3 (by decide) he
    | readInput a q => exact analyse_regs_reply _ hc.1 hc.2 _ _ rfl (by simp [Call.args]) 4 (by decide) he
    | writeCoil a v =>
      have hd : d = word (toWord a) ++ word (if v = 0 then 0 else 0xff00) := by
        simp only [Call.toReq] at he
        generalize (if v = 0 then (0 : UInt16) else 0xff00) = w at he ⊢
        simp only [Spec.exec] at he
        split at he
        · cases he
        · split at he
          · cases he; rfl
          · split at he
            · cases he; rfl
            · cases he
      rw [hd]
      have := analyse_echo2 (Call.args slave (.writeCoil a v)) (Call.pdu (.writeCoil a v)) 8 rfl (by simp [Call.args])
        (by simp [Call.args]) 5 (by decide) (toWord a) (if v = 0 then 0 else 0xff00)
      rw [toWord_toNat hc] at this
      refine Eq.trans this ?_
      by_cases hv : v = 0 <;> simp [hv]
    | writeRegister a v =>
      have hd : d = word (toWord a) ++ word (toWord v) := by
        simp only [Call.toReq, Spec.exec] at he
        split at he
        · cases he
        · cases he; rfl
      rw [hd]
      have := analyse_echo2 (Call.args slave (.writeRegister a v)) (Call.pdu (.writeRegister a v)) 8 rfl (by simp [Call.args])
        (by simp [Call.args]) 6 (by decide) (toWord a) (toWord v)
      rw [toWord_toNat hc.1, toWord_mod] at this
      exact this
    | readExceptionStatus => cases he; rfl
    | diagnostic sub data => cases he
    | writeCoils a vs =>
      have hd : d = word (toWord a) ++ word (toWord vs.length) := by
        simp only [Call.toReq, Spec.exec] at he
        split at he
        · cases he
        · split at he
          · cases he
          · cases he; rfl
      rw [hd]
      have := analyse_echo2 (Call.args slave (.writeCoils a vs)) (Call.pdu (.writeCoils a vs)) 8 rfl (by simp [Call.args])
        (by simp [Call.args]) 15 (by decide) (toWord a) (toWord vs.length)
      have h16 : Fits16 (vs.length : Int) := by
        have := hc.2.2; simp only [bytesFor] at this; constructor <;> omega
      rw [toWord_toNat hc.1, toWord_toNat h16] at this
      exact this
    | writeRegisters a vs =>
      have hd : d = word (toWord a) ++ word (toWord vs.length) := by
        simp only [Call.toReq, Spec.exec] at he
        split at he
        · cases he
        · split at he
          · cases he
          · cases he; rfl
      rw [hd]
      have := analyse_echo2 (Call.args slave (.writeRegisters a vs)) (Call.pdu (.writeRegisters a vs)) 8 rfl (by simp [Call.args])
        (by simp [Call.args]) 16 (by decide) (toWord a) (toWord vs.length)
      have h16 : Fits16 (vs.length : Int) := by
        have := hc.2.1.2; constructor <;> omega
      rw [toWord_toNat hc.1, toWord_toNat h16] at this
      exact this
    | readFileRecord rs => cases he
    | maskWrite a am om =>
      have hd : d = word (toWord a) ++ word (toWord am) ++ word (toWord om) := by
        simp only [Call.toReq, Spec.exec] at he
        split at he
        · cases he
        · cases he; rfl
      rw [hd]
      have := analyse_echo3 (Call.args slave (.maskWrite a am om)) (Call.pdu (.maskWrite a am om)) 10 rfl (by simp [Call.args])
        (by simp [Call.args]) 22 (by decide) (toWord a) (toWord am) (toWord om)
      rw [toWord_toNat hc.1, toWord_toNat hc.2.1, toWord_toNat hc.2.2] at this
      exact this
    | readWrite ra rq wa vs =>
      have hd : Spec.readRegs m.holding (toWord ra) (toWord rq) = .ok d := by
        simp only [Call.toReq, Spec.exec] at he
        cases hr : Spec.readRegs m.holding (toWord ra) (toWord rq) with
        | exc c => rw [hr] at he; cases he
        | ok d' =>
          rw [hr] at he
          dsimp only at he
          split at he
          · cases he
          · split at he
            · cases he
            · cases he; rfl
      exact analyse_regs_reply _ hc.1 hc.2.1 _ _ rfl (by simp [Call.args]) 23 (by decide) hd
    | deviceInfo a b => cases he

theorem toByte_toNat {v : Int} (h : Fits8 v) : ((toByte v).toNat : Int) = v := by
  have := h.1; have := h.2
  rw [toByte, UInt8.toNat_ofNat']
  omega

theorem toReq_WF (c : Call) (hc : c.Fits) : c.toReq.WF := by
  have efm : ∀ vs : List Int, (vs.flatMap (fun v => word (toWord v))).length = 2 * vs.length := by
    intro vs
    have : vs.flatMap (fun v => word (toWord v)) = (vs.map toWord).flatMap word := by simp [List.flatMap_map]
    rw [this, flatMap_word_length, List.length_map]
  cases c with
  | writeCoils a vs =>
    show (packBits _).length = (toByte _).toNat
    have := toByte_toNat hc.2
    rw [packBits_length, List.length_map]; omega
  | writeRegisters a vs =>
    show (vs.flatMap _).length = (toByte _).toNat
    have := toByte_toNat hc.2.1
    rw [efm]; omega
  | readWrite ra rq wa vs =>
    show (vs.flatMap _).length = (toByte _).toNat
    have := toByte_toNat hc.2.2.2.1
    rw [efm]; omega
  | diagnostic sub data => exact ⟨by decide, by decide⟩
  | readFileRecord rs => exact ⟨by decide, by decide⟩
  | deviceInfo a b => exact ⟨by decide, by decide⟩
  | _ => trivial

/-- no response pdu of a slave is longer than 252 bytes -/
theorem reply_length (u : Bool) (m : Spec.Mem) (req : Spec.Req) : ((Spec.exec u m req).1.encode req.fc).length ≤ 252 := by
  have bits : ∀ (t : Spec.Table) (a q : UInt16) (fc : UInt8), ((Spec.readBits t a q).encode fc).length ≤ 252 := by
    intro t a q fc
    cases h : Spec.readBits t a q with
    | exc c => simp [Spec.Reply.encode]
    | ok d =>
      obtain ⟨hle, rfl⟩ := readBits_inv h
      simp only [Spec.Reply.encode, List.length_cons, packBits_length, List.length_map, Spec.Table.read, List.length_range, bytesFor]
      omega
  have regs : ∀ (t : Spec.Table) (a q : UInt16) (d : Bytes), Spec.readRegs t a q = .ok d → d.length ≤ 251 := by
    intro t a q d h
    obtain ⟨hle, rfl⟩ := readRegs_inv h
    have efm : (t.read a.toNat q.toNat).flatMap (fun v => word (toWord v)) = ((t.read a.toNat q.toNat).map toWord).flatMap word := by
      simp [List.flatMap_map]
    rw [List.length_cons, efm, flatMap_word_length]
    simp only [List.length_map, Spec.Table.read, List.length_range]
    omega
  have regs' : ∀ (t : Spec.Table) (a q : UInt16) (fc : UInt8), ((Spec.readRegs t a q).encode fc).length ≤ 252 := by
    intro t a q fc
    cases h : Spec.readRegs t a q with
    | exc c => simp [Spec.Reply.encode]
    | ok d => have := regs t a q d h; simp only [Spec.Reply.encode, List.length_cons]; omega
  cases req with
  | readCoils a q => exact bits _ _ _ _
  | readDiscrete a q => exact bits _ _ _ _
  | readHolding a q => exact regs' _ _ _ _
  | readInput a q => exact regs' _ _ _ _
  | writeCoil a v => simp only [Spec.exec]; split <;> [skip; split <;> [skip; split]] <;> simp [Spec.Reply.encode, word]
  | writeRegister a v => simp only [Spec.exec]; split <;> simp [Spec.Reply.encode, word]
  | readExceptionStatus => simp [Spec.exec, Spec.Reply.encode]
  | writeCoils a q bc p => simp only [Spec.exec]; split <;> [skip; split] <;> simp [Spec.Reply.encode, word]
  | writeRegisters a q bc p => simp only [Spec.exec]; split <;> [skip; split] <;> simp [Spec.Reply.encode, word]
  | maskWrite a am om => simp only [Spec.exec]; split <;> simp [Spec.Reply.encode, word]
  | readWrite ra rq wa wq bc p =>
    simp only [Spec.exec]
    cases h : Spec.readRegs m.holding ra rq with
    | exc c => simp [Spec.Reply.encode]
    | ok d =>
      have := regs _ _ _ _ h
      dsimp only
      split <;> [skip; split] <;> simp [Spec.Reply.encode] <;> omega
  | other fc rest => simp [Spec.exec, Spec.Reply.encode]

/-- A master connected to a server that has slave `sl` under `id`, in good order, with nothing left in the link. -/
structure Ready (id : Int) (sl : Slave) (r : Refs) (s : MasterSt Net) : Prop where
  known : Dict.get? s.link.db.slaves id = some sl
  good : Good s.link.heap sl r
  clean : s.link.back = []
  tid : 0 ≤ s.lastTid ∧ s.lastTid ≤ 65535

theorem serverLink_recv (R : Registry) (mac : Mac) (n : Int) (s : Net) (h : s.back ≠ []) :
    (serverLink R mac).recv n s = (.ok s.back, { s with back := [] }) := if_neg h

theorem open_serverLink (R : Registry) (mac : Mac) (s : MasterSt Net) :
    masterOpen (serverLink R mac) s = (.ok (), { s with isOpened := true }) := by
  unfold masterOpen
  cases h : s.isOpened
  · rfl
  · obtain ⟨o, l, t⟩ := s
    simp only at h
    subst h
    rfl

theorem args_slave (c : Call) (id : Int) : (c.args id).slave = some id := by cases c <;> rfl

/-- **C34.** TCP: against a modbus-tk server, a call whose arguments fit returns exactly what the specification prescribes
    for the server's memory (or raises ModbusError with the prescribed code), changes that memory as prescribed, and leaves
    everything ready for the next call. -/
theorem C34_tcp (R : Registry) (hR : Quiet R) (id : Int) (h0 : 1 ≤ id) (h1 : id ≤ 255) (sl : Slave) (r : Refs)
    (s : MasterSt Net) (hs : Ready id sl r s) (c : Call) (hc : c.Fits) (hl : c.pdu.length ≤ 65534)
    (hm : sl.unsigned = true ∨ ∀ a am om, c ≠ .maskWrite a am om) :
    ∃ s', execute R tcpMac (serverLink R tcpMac) (c.args id) s =
        (outcome (c.answer sl.unsigned (absMem s.link.heap sl)), s') ∧
      absMem s'.link.heap sl = c.after sl.unsigned (absMem s.link.heap sl) ∧ Ready id sl r s' := by
  have ho := open_serverLink R tcpMac s
  have hp := prepare_call id hc
  have hl' : c.prepared.pdu.length ≤ 65534 := by rw [prepared_pdu]; exact hl
  obtain ⟨q, hb, q1, q2, q3⟩ := buildRequest_tcp (pdu := c.prepared.pdu) hl' (by omega : 0 ≤ id) h1
    (s := { s with isOpened := true }) hs.tid
  dsimp only at hb q1
  rw [execute_main hR ho hp (args_slave c id) hb]
  rw [prepared_pdu, pdu_toReq]
  generalize htid : UInt16.ofNat ((s.lastTid + 1) % 65536).toNat = tid
  rw [htid] at q1
  have hid : ((UInt8.ofNat id.toNat).toNat : Int) = id := by
    rw [UInt8.toNat_ofNat', Nat.mod_eq_of_lt (by omega)]; omega
  generalize hu : UInt8.ofNat id.toNat = unit at hid q3
  have hm' : sl.unsigned = true ∨ ∀ a am om, c.toReq ≠ .maskWrite a am om := by
    rcases hm with h | h
    · exact .inl h
    · right; intro a am om e
      cases c <;> first | exact absurd rfl (h _ _ _) | (simp [Call.toReq] at e)
  obtain ⟨h', e1, e2, e3, _⟩ := handler_refines hR hs.good c.toReq (toReq_WF c hc) hm'
  have hrl := reply_length sl.unsigned (absMem s.link.heap sl) c.toReq
  generalize hrep : (Spec.exec sl.unsigned (absMem s.link.heap sl) c.toReq).1.encode c.toReq.fc = rep at e1 hrl
  have hpr : tcpMac.parseRequest (tcpAdu tid 0 unit c.toReq.encode) tcpMac.new = _ :=
    tcpParseRequest_adu tid 0 unit (by rw [← pdu_toReq]; exact hl) (tcpMac.new : TcpQuery)
  have e4 := tcpBuildResponse_adu tid 0 unit (pdu := rep) (by omega)
    ({ (tcpMac.new : TcpQuery) with request := ⟨tid.toNat, (0 : UInt16).toNat, c.toReq.encode.length + 1, unit.toNat⟩ }) ⟨_, rfl⟩
  have hdb : dbHandle R tcpMac s.link.db (tcpAdu tid 0 unit c.toReq.encode) s.link.heap = (.ok (some (tcpAdu tid 0 unit rep)), h') :=
    dbHandle_some hpr (by omega) (by rw [hid]; exact hs.known) e1 e4
  have hsend : (serverLink R tcpMac).send (tcpAdu tid 0 unit c.toReq.encode) s.link =
      (.ok (), { s.link with heap := h', back := tcpAdu tid 0 unit rep }) := by
    show (match serverHandle R tcpMac s.link.db _ s.link.heap with
      | (.ok r, h) => ((Except.ok () : Except PyErr Unit), { s.link with heap := h, back := s.link.back ++ r.getD [] })
      | (.error _, h) => (.ok (), { s.link with heap := h })) = _
    rw [serverHandle_quiet hR, hdb]
    dsimp only
    rw [hs.clean]
    rfl
  have hrecv : ∀ n, (serverLink R tcpMac).recv n { s.link with heap := h', back := tcpAdu tid 0 unit rep } =
      (.ok (tcpAdu tid 0 unit rep), { s.link with heap := h', back := [] }) := by
    intro n
    exact serverLink_recv R tcpMac n _ (by simp [tcpAdu, word])
  have hparse := (C24_accepts (tcpAdu tid 0 unit rep) q rep).mpr ⟨_, _, _, rfl, by omega, q1, q2, q3⟩
  rw [hsend]
  dsimp only
  rw [hrecv]
  dsimp only
  rw [show (tcpMac.parseResponse (tcpAdu tid 0 unit rep) q).1 = _ from hparse]
  dsimp only
  rw [← hrep, analyse_reply _ _ c hc]
  exact ⟨_, rfl, e2, ⟨hs.known, e3, rfl, by dsimp only; omega⟩⟩

/-- **C34.** RTU: likewise. -/
theorem C34_rtu (R : Registry) (hR : Quiet R) (id : Int) (h0 : 1 ≤ id) (h1 : id ≤ 255) (sl : Slave) (r : Refs)
    (s : MasterSt Net) (hs : Ready id sl r s) (c : Call) (hc : c.Fits)
    (hm : sl.unsigned = true ∨ ∀ a am om, c ≠ .maskWrite a am om) :
    ∃ s', execute R rtuMac (serverLink R rtuMac) (c.args id) s =
        (outcome (c.answer sl.unsigned (absMem s.link.heap sl)), s') ∧
      absMem s'.link.heap sl = c.after sl.unsigned (absMem s.link.heap sl) ∧ Ready id sl r s' := by
  have ho := open_serverLink R rtuMac s
  have hp := prepare_call id hc
  obtain ⟨q, hb, q1⟩ := buildRequest_rtu (pdu := c.prepared.pdu) (by omega : 0 ≤ id) h1 (s := { s with isOpened := true })
  rw [execute_main hR ho hp (args_slave c id) hb]
  rw [prepared_pdu, pdu_toReq]
  have hid : ((UInt8.ofNat id.toNat).toNat : Int) = id := by
    rw [UInt8.toNat_ofNat', Nat.mod_eq_of_lt (by omega)]; omega
  generalize hu : UInt8.ofNat id.toNat = unit at hid q1
  have hm' : sl.unsigned = true ∨ ∀ a am om, c.toReq ≠ .maskWrite a am om := by
    rcases hm with h | h
    · exact .inl h
    · right; intro a am om e
      cases c <;> first | exact absurd rfl (h _ _ _) | (simp [Call.toReq] at e)
  obtain ⟨h', e1, e2, e3, _⟩ := handler_refines hR hs.good c.toReq (toReq_WF c hc) hm'
  generalize hrep : (Spec.exec sl.unsigned (absMem s.link.heap sl) c.toReq).1.encode c.toReq.fc = rep at e1
  have hpr : rtuMac.parseRequest (rtuAdu unit c.toReq.encode) rtuMac.new = _ :=
    rtuParseRequest_adu unit c.toReq.encode (rtuMac.new : RtuQuery)
  have e4 := rtuBuildResponse_adu unit rep ({ (rtuMac.new : RtuQuery) with requestAddress := (unit.toNat : Int) }) rfl
  have hdb : dbHandle R rtuMac s.link.db (rtuAdu unit c.toReq.encode) s.link.heap = (.ok (some (rtuAdu unit rep)), h') :=
    dbHandle_some hpr (by omega) (by rw [hid]; exact hs.known) e1 e4
  have hsend : (serverLink R rtuMac).send (rtuAdu unit c.toReq.encode) s.link =
      (.ok (), { s.link with heap := h', back := rtuAdu unit rep }) := by
    show (match serverHandle R rtuMac s.link.db _ s.link.heap with
      | (.ok r, h) => ((Except.ok () : Except PyErr Unit), { s.link with heap := h, back := s.link.back ++ r.getD [] })
      | (.error _, h) => (.ok (), { s.link with heap := h })) = _
    rw [serverHandle_quiet hR, hdb]
    dsimp only
    rw [hs.clean]
    rfl
  have hrecv : ∀ n, (serverLink R rtuMac).recv n { s.link with heap := h', back := rtuAdu unit rep } =
      (.ok (rtuAdu unit rep), { s.link with heap := h', back := [] }) := by
    intro n
    exact serverLink_recv R rtuMac n _ (by simp [rtuAdu])
  have hparse := ((C25_response (rtuAdu unit rep) q).1 rep).mpr ⟨_, rfl, q1⟩
  rw [hsend]
  dsimp only
  rw [hrecv]
  dsimp only
  rw [show (rtuMac.parseResponse (rtuAdu unit rep) q).1 = _ from hparse]
  dsimp only
  rw [← hrep, analyse_reply _ _ c hc]
  exact ⟨_, rfl, e2, ⟨hs.known, e3, rfl, hs.tid⟩⟩

/-- both transports at once -/
theorem C34_either (R : Registry) (hR : Quiet R) (mac : Mac) (hmac : mac = tcpMac ∨ mac = rtuMac) (id : Int) (h0 : 1 ≤ id)
    (h1 : id ≤ 255) (sl : Slave) (r : Refs) (s : MasterSt Net) (hs : Ready id sl r s) (c : Call) (hc : c.Fits)
    (hl : c.pdu.length ≤ 65534) (hm : sl.unsigned = true ∨ ∀ a am om, c ≠ .maskWrite a am om) :
    ∃ s', execute R mac (serverLink R mac) (c.args id) s =
        (outcome (c.answer sl.unsigned (absMem s.link.heap sl)), s') ∧
      absMem s'.link.heap sl = c.after sl.unsigned (absMem s.link.heap sl) ∧ Ready id sl r s' := by
  rcases hmac with rfl | rfl
  · exact C34_tcp R hR id h0 h1 sl r s hs c hc hl hm
  · exact C34_rtu R hR id h0 h1 sl r s hs c hc hm

/-- a program of calls on one slave: the results in order and the final state -/
def runCalls (R : Registry) (mac : Mac) (id : Int) : List Call → MasterSt Net → List (Except PyErr ExecResult) × MasterSt Net
  | [], s => ([], s)
  | c :: cs, s =>
    let r := execute R mac (serverLink R mac) (c.args id) s
    let rest := runCalls R mac id cs r.2
    (r.1 :: rest.1, rest.2)

/-- what the specification prescribes for a program of calls -/
def specCalls (u : Bool) : List Call → Spec.Mem → List (Except UInt8 (List Int)) × Spec.Mem
  | [], m => ([], m)
  | c :: cs, m => let rest := specCalls u cs (c.after u m); (c.answer u m :: rest.1, rest.2)

/-- **C34.** Any program of calls, over TCP or RTU, gives exactly the results and the final memory the specification
    prescribes - refused calls included. -/
theorem C34_history (R : Registry) (hR : Quiet R) (mac : Mac) (hmac : mac = tcpMac ∨ mac = rtuMac) (id : Int) (h0 : 1 ≤ id)
    (h1 : id ≤ 255) (sl : Slave) (r : Refs) (s : MasterSt Net) (hs : Ready id sl r s) (cs : List Call)
    (hc : ∀ c ∈ cs, c.Fits ∧ c.pdu.length ≤ 65534 ∧ (sl.unsigned = true ∨ ∀ a am om, c ≠ .maskWrite a am om)) :
    (runCalls R mac id cs s).1 = (specCalls sl.unsigned cs (absMem s.link.heap sl)).1.map outcome ∧
    absMem (runCalls R mac id cs s).2.link.heap sl = (specCalls sl.unsigned cs (absMem s.link.heap sl)).2 := by
  induction cs generalizing s with
  | nil => exact ⟨rfl, rfl⟩
  | cons c cs ih =>
    obtain ⟨a1, a2, a3⟩ := hc c (by simp)
    obtain ⟨s', e1, e2, e3⟩ := C34_either R hR mac hmac id h0 h1 sl r s hs c a1 a2 a3
    have := ih s' e3 (fun c h => hc c (by simp [h]))
    rw [e2] at this
    simp only [runCalls, specCalls, e1, List.map_cons]
    exact ⟨by rw [this.1], this.2⟩

/-! ## C33 -/

theorem read_write (t : Spec.Table) (a : Int) (vs : List Int) : (t.write a vs).read a vs.length = vs := by
  apply List.ext_getElem
  · simp [Spec.Table.read]
  · intro i h1 h2
    simp only [Spec.Table.read, Spec.Table.write, List.getElem_map, List.getElem_range]
    rw [if_pos (by omega)]
    simp [h2]

theorem ofWord_mod (u : Bool) (x : UInt16) : Spec.ofWord u x % 65536 = (x.toNat : Int) := by
  have := x.toNat_lt
  unfold Spec.ofWord
  split <;> omega

theorem payloadValues_flatMap (u : Bool) (vs : List Int) :
    Spec.payloadValues u (vs.flatMap (fun v => word (toWord v))) vs.length = vs.map (fun v => Spec.ofWord u (toWord v)) := by
  have efm : vs.flatMap (fun v => word (toWord v)) = (vs.map toWord).flatMap word := by simp [List.flatMap_map]
  unfold Spec.payloadValues
  apply List.ext_getElem
  · simp
  · intro i h1 h2
    simp only [List.getElem_map, List.getElem_range]
    rw [efm, wordAt_flatMap _ (by simpa using h2)]
    simp

theorem payloadBits_packBits (bits : List Bool) :
    Spec.payloadBits (packBits bits) bits.length = bits.map (fun b => if b then 1 else 0) := range_bitAt_packBits bits

theorem two_calls {R : Registry} (hR : Quiet R) {mac : Mac} (hmac : mac = tcpMac ∨ mac = rtuMac) {id : Int} (h0 : 1 ≤ id)
    (h1 : id ≤ 255) {sl : Slave} {r : Refs} {s : MasterSt Net} (hs : Ready id sl r s) {c d : Call} (hc : c.Fits) (hd : d.Fits)
    (hcd : ∀ sub data, c ≠ .diagnostic sub data) (hdd : ∀ sub data, d ≠ .diagnostic sub data)
    (hcm : ∀ a am om, c ≠ .maskWrite a am om) (hdm : ∀ a am om, d ≠ .maskWrite a am om) {x y : List Int}
    (hx : c.answer sl.unsigned (absMem s.link.heap sl) = .ok x)
    (hy : d.answer sl.unsigned (c.after sl.unsigned (absMem s.link.heap sl)) = .ok y) :
    (runCalls R mac id [c, d] s).1 = [.ok (.values x), .ok (.values y)] := by
  have := (C34_history R hR mac hmac id h0 h1 sl r s hs [c, d] (by
    intro e he
    rcases List.mem_cons.mp he with rfl | he
    · exact ⟨hc, C38_length _ hc hcd, .inr hcm⟩
    · rcases List.mem_cons.mp he with rfl | he
      · exact ⟨hd, C38_length _ hd hdd, .inr hdm⟩
      · cases he)).1
  rw [this]
  simp only [specCalls, hx, hy, List.map_cons, List.map_nil, outcome]

/-- **C33.** Registers: `execute(id, WRITE_MULTIPLE_REGISTERS, a, output_value=vs)` on existing registers acknowledges the
    write, and `execute(id, READ_HOLDING_REGISTERS, a, len(vs))` after it returns `vs` (negative values as two's
    complement) - over TCP and RTU, for signed and unsigned slaves. -/
theorem C33_registers (R : Registry) (hR : Quiet R) (mac : Mac) (hmac : mac = tcpMac ∨ mac = rtuMac) (id : Int) (h0 : 1 ≤ id)
    (h1 : id ≤ 255) (sl : Slave) (r : Refs) (s : MasterSt Net) (hs : Ready id sl r s) (a : Int) (vs : List Int)
    (ha : Fits16 a) (hn : 1 ≤ vs.length ∧ vs.length ≤ 123) (hv : ∀ v ∈ vs, FitsReg v)
    (hcov : (absMem s.link.heap sl).holding.covers a vs.length = true) :
    (runCalls R mac id [.writeRegisters a vs, .readHolding a vs.length] s).1 =
      [.ok (.values [a, vs.length]), .ok (.values (vs.map (fun v => v % 65536)))] := by
  have h16 : Fits16 (vs.length : Int) := by constructor <;> omega
  have h8 : Fits8 (2 * (vs.length : Int)) := by constructor <;> omega
  have ea : ((toWord a).toNat : Int) = a := toWord_toNat ha
  have en : (toWord vs.length).toNat = vs.length := by have := toWord_toNat h16; omega
  have eb : (toByte (2 * vs.length)).toNat = 2 * vs.length := by have := toByte_toNat h8; omega
  have hex : Spec.exec sl.unsigned (absMem s.link.heap sl) (Call.toReq (.writeRegisters a vs)) =
      (.ok (word (toWord a) ++ word (toWord vs.length)),
        { absMem s.link.heap sl with
          holding := ((absMem s.link.heap sl).holding.write a (vs.map (fun v => Spec.ofWord sl.unsigned (toWord v)))) }) := by
    simp only [Call.toReq, Spec.exec, ea, en, eb, hcov, payloadValues_flatMap]
    rw [if_neg (by omega), if_neg (by simp)]
  refine two_calls hR hmac h0 h1 hs (c := .writeRegisters a vs) (d := .readHolding a vs.length) ⟨ha, h8, hv⟩ ⟨ha, h16⟩ (by simp) (by simp) (by simp) (by simp) ?_ ?_
  · simp only [Call.answer, hex]
  · rw [Call.after, hex]
    simp only [Call.answer, Call.toReq, Spec.exec, Spec.readRegs, ea, en]
    rw [if_neg (by omega)]
    have hcov' : ((absMem s.link.heap sl).holding.write a (vs.map (fun v => Spec.ofWord sl.unsigned (toWord v)))).covers a vs.length
      = true := hcov
    rw [hcov']
    simp only [Bool.not_true, Bool.false_eq_true, if_false, Int.toNat_natCast]
    have := read_write (absMem s.link.heap sl).holding a (vs.map (fun v => Spec.ofWord sl.unsigned (toWord v)))
    rw [List.length_map] at this
    rw [this, List.map_map]
    congr 1
    apply List.map_congr_left
    intro v _
    simp only [Function.comp, ofWord_mod, toWord_mod]

/-- **C33.** Coils: likewise with functions 15 and 1; a coil reads 1 iff its value was positive. -/
theorem C33_coils (R : Registry) (hR : Quiet R) (mac : Mac) (hmac : mac = tcpMac ∨ mac = rtuMac) (id : Int) (h0 : 1 ≤ id)
    (h1 : id ≤ 255) (sl : Slave) (r : Refs) (s : MasterSt Net) (hs : Ready id sl r s) (a : Int) (vs : List Int)
    (ha : Fits16 a) (hn : 1 ≤ vs.length ∧ vs.length ≤ 1968)
    (hcov : (absMem s.link.heap sl).coils.covers a vs.length = true) :
    (runCalls R mac id [.writeCoils a vs, .readCoils a vs.length] s).1 =
      [.ok (.values [a, vs.length]), .ok (.values (vs.map (fun v => if 0 < v then 1 else 0)))] := by
  have h16 : Fits16 (vs.length : Int) := by constructor <;> omega
  have h8 : Fits8 (bytesFor vs.length : Int) := by simp only [bytesFor]; constructor <;> omega
  have ea : ((toWord a).toNat : Int) = a := toWord_toNat ha
  have en : (toWord vs.length).toNat = vs.length := by have := toWord_toNat h16; omega
  have eb : (toByte (bytesFor vs.length)).toNat = bytesFor vs.length := by have := toByte_toNat h8; omega
  have epay : Spec.payloadBits (packBits (vs.map (fun v => decide (0 < v)))) vs.length = vs.map (fun v => if 0 < v then 1 else 0) := by
    have := payloadBits_packBits (vs.map (fun v => decide (0 < v)))
    rw [List.length_map] at this
    rw [this, List.map_map]
    apply List.map_congr_left
    intro v _
    simp
  have hex : Spec.exec sl.unsigned (absMem s.link.heap sl) (Call.toReq (.writeCoils a vs)) =
      (.ok (word (toWord a) ++ word (toWord vs.length)),
        { absMem s.link.heap sl with coils := (absMem s.link.heap sl).coils.write a (vs.map (fun v => if 0 < v then 1 else 0)) }) := by
    simp only [Call.toReq, Spec.exec, ea, en, eb, hcov, epay]
    rw [if_neg (by omega), if_neg (by simp)]
  refine two_calls hR hmac h0 h1 hs (c := .writeCoils a vs) (d := .readCoils a vs.length) ⟨ha, h8⟩ ⟨ha, h16⟩ (by simp) (by simp) (by simp) (by simp) ?_ ?_
  · simp only [Call.answer, hex]
  · rw [Call.after, hex]
    simp only [Call.answer, Call.toReq, Spec.exec, Spec.readBits, ea, en]
    rw [if_neg (by omega)]
    have hcov' : ((absMem s.link.heap sl).coils.write a (vs.map (fun v => if 0 < v then (1 : Int) else 0))).covers a vs.length
      = true := hcov
    rw [hcov']
    simp only [Bool.not_true, Bool.false_eq_true, if_false, Int.toNat_natCast]
    have := read_write (absMem s.link.heap sl).coils a (vs.map (fun v => if 0 < v then (1 : Int) else 0))
    rw [List.length_map] at this
    rw [this, List.map_map]
    congr 1
    apply List.map_congr_left
    intro v _
    by_cases h : 0 < v <;> simp [h]

/-- **C33.** The single-write functions. -/
theorem C33_single_register (R : Registry) (hR : Quiet R) (mac : Mac) (hmac : mac = tcpMac ∨ mac = rtuMac) (id : Int) (h0 : 1 ≤ id)
    (h1 : id ≤ 255) (sl : Slave) (r : Refs) (s : MasterSt Net) (hs : Ready id sl r s) (a v : Int) (ha : Fits16 a)
    (hv : FitsReg v) (hcov : (absMem s.link.heap sl).holding.covers a 1 = true) :
    (runCalls R mac id [.writeRegister a v, .readHolding a 1] s).1 =
      [.ok (.values [a, v % 65536]), .ok (.values [v % 65536])] := by
  have ea : ((toWord a).toNat : Int) = a := toWord_toNat ha
  have hex : Spec.exec sl.unsigned (absMem s.link.heap sl) (Call.toReq (.writeRegister a v)) =
      (.ok (word (toWord a) ++ word (toWord v)),
        { absMem s.link.heap sl with holding := (absMem s.link.heap sl).holding.write a [Spec.ofWord sl.unsigned (toWord v)] }) := by
    simp only [Call.toReq, Spec.exec, ea, hcov]
    rw [if_neg (by simp)]
  refine two_calls hR hmac h0 h1 hs (c := .writeRegister a v) (d := .readHolding a 1) ⟨ha, hv⟩ ⟨ha, by decide⟩ (by simp) (by simp) (by simp) (by simp) ?_ ?_
  · simp only [Call.answer, hex]
  · have e1 : (toWord 1).toNat = 1 := rfl
    rw [Call.after, hex]
    simp only [Call.answer, Call.toReq, Spec.exec, Spec.readRegs, ea, e1]
    rw [if_neg (by omega)]
    have hcov' : ((absMem s.link.heap sl).holding.write a [Spec.ofWord sl.unsigned (toWord v)]).covers a ((1 : Nat) : Int)
      = true := hcov
    rw [hcov']
    simp only [Bool.not_true, Bool.false_eq_true, if_false]
    have := read_write (absMem s.link.heap sl).holding a [Spec.ofWord sl.unsigned (toWord v)]
    rw [show (1 : Int).toNat = [Spec.ofWord sl.unsigned (toWord v)].length from rfl, this]
    simp only [List.map_cons, List.map_nil, ofWord_mod, toWord_mod]

/-- **C33.** -/
theorem C33_single_coil (R : Registry) (hR : Quiet R) (mac : Mac) (hmac : mac = tcpMac ∨ mac = rtuMac) (id : Int) (h0 : 1 ≤ id)
    (h1 : id ≤ 255) (sl : Slave) (r : Refs) (s : MasterSt Net) (hs : Ready id sl r s) (a v : Int) (ha : Fits16 a)
    (hcov : (absMem s.link.heap sl).coils.covers a 1 = true) :
    (runCalls R mac id [.writeCoil a v, .readCoils a 1] s).1 =
      [.ok (.values [a, if v = 0 then 0 else 65280]), .ok (.values [if v = 0 then 0 else 1])] := by
  have ea : ((toWord a).toNat : Int) = a := toWord_toNat ha
  have hex : Spec.exec sl.unsigned (absMem s.link.heap sl) (Call.toReq (.writeCoil a v)) =
      (.ok (word (toWord a) ++ word (if v = 0 then 0 else 0xff00)),
        { absMem s.link.heap sl with coils := (absMem s.link.heap sl).coils.write a [if v = 0 then 0 else 1] }) := by
    by_cases hv : v = 0
    · simp [Call.toReq, Spec.exec, ea, hcov, hv]
    · simp [Call.toReq, Spec.exec, ea, hcov, hv]
  refine two_calls hR hmac h0 h1 hs (c := .writeCoil a v) (d := .readCoils a 1) ha ⟨ha, by decide⟩ (by simp) (by simp) (by simp) (by simp) ?_ ?_
  · simp only [Call.answer, hex]
  · have e1 : (toWord 1).toNat = 1 := rfl
    rw [Call.after, hex]
    simp only [Call.answer, Call.toReq, Spec.exec, Spec.readBits, ea, e1]
    rw [if_neg (by omega)]
    have hcov' : ((absMem s.link.heap sl).coils.write a [if v = 0 then (0 : Int) else 1]).covers a ((1 : Nat) : Int)
      = true := hcov
    rw [hcov']
    simp only [Bool.not_true, Bool.false_eq_true, if_false]
    have := read_write (absMem s.link.heap sl).coils a [if v = 0 then (0 : Int) else 1]
    rw [show (1 : Int).toNat = [if v = 0 then (0 : Int) else 1].length from rfl, this]
    by_cases hv : v = 0 <;> simp [hv]

/-! ### A concrete case -/

/-- a master that has never been opened and a server with two slaves -/
def exNet : MasterSt Net := ⟨false, ⟨exTwo.st.db, exTwo.st.heap, []⟩, 65535⟩

theorem exNet_ready : Ready 1 ⟨1, true, [("a", (3, 10))], 0⟩ ⟨0, 1, 2, 3⟩ exNet := by
  refine ⟨by decide, ?_, rfl, by decide⟩
  exact block_good (bs := [Block.new 10 5]) (by decide) (by decide) (by decide) (by decide) (by decide) (by decide)
    (single_wf (by decide) true).1 (single_wf (by decide) _).2

example : (runCalls [] tcpMac 1 [.writeRegisters 11 [-1, 40000], .readHolding 10 4, .readHolding 14 2, .writeCoil 0 1,
      .maskWrite 11 240 3, .readHolding 11 1] exNet).1 =
    [.ok (.values [11, 2]), .ok (.values [0, 65535, 40000, 0]), .error (.modbusError 2), .error (.modbusError 2),
     .ok (.values [11, 240, 3]), .ok (.values [243])] := by decide +kernel

example : (runCalls [] rtuMac 1 [.writeRegister 14 7, .readWrite 13 2 13 [5, 6], .readHolding 13 2, .deviceInfo 1 0] exNet).1 =
    [.ok (.values [14, 7]), .ok (.values [0, 7]), .ok (.values [5, 6]), .error (.modbusError 1)] := by decide +kernel

-- the hypotheses of C33_registers are met
example : (runCalls [] tcpMac 1 [.writeRegisters 11 [-1, 40000], .readHolding 11 2] exNet).1 =
    [.ok (.values [11, 2]), .ok (.values [65535, 40000])] :=
  C33_registers [] quiet_nil tcpMac (.inl rfl) 1 (by decide) (by decide) _ _ exNet exNet_ready 11 [-1, 40000] (by decide)
    (by decide) (by decide) (by decide)

end Modbus
