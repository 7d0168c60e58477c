import Verif.Props.FormatText
/-
# C87: what calls with data format texts send, return and refuse
-/
namespace Modbus
open Spec (Call Fits16 Fits8 FitsReg word wordAt toWord toByte tcpAdu rtuAdu)

variable {F : Type} {P : Platform F} {σ : Type}

/-! ## Reading registers -/

/-- the same failure, or the same preparation but for the text of the format -/
def Refmt (u : Text) (x y : Except PyErr PreparedT) : Prop := x = y.map (fun p => { p with dataFormat := u })

theorem Refmt.bind {α : Type} {u : Text} {x : Except PyErr α} {f g : α → Except PyErr PreparedT} (h : ∀ v, Refmt u (f v) (g v)) : Refmt u (x >>= f) (x >>= g) := by
  cases x with
  | error e => rfl
  | ok v => exact h v

theorem prepareT_reads (P : Platform F) (a : ExecArgsT F) (u : Text) (hu : u ≠ [])
    (hfc : a.functionCode = defines.READ_HOLDING_REGISTERS ∨ a.functionCode = defines.READ_INPUT_REGISTERS ∨ a.functionCode = defines.READ_WRITE_MULTIPLE_REGISTERS) :
    Refmt u (prepareT P { a with dataFormat := u }) (prepareT P { a with dataFormat := [] }) := by
  have ho : ∀ d, orText u d = u := fun d => if_neg hu
  obtain ⟨sl, fc, sa, qu, ov, df, el, ws, nf, pd, rr, am, om⟩ := a
  dsimp only at hfc ⊢
  unfold prepareT
  dsimp only
  rcases hfc with rfl | rfl | rfl
  · rw [if_neg (by decide), if_pos (by decide), if_neg (by decide), if_pos (by decide)]
    refine .bind fun _ => .bind fun _ => .bind fun _ => .bind fun _ => ?_
    rw [ho]; rfl
  · rw [if_neg (by decide), if_pos (by decide), if_neg (by decide), if_pos (by decide)]
    refine .bind fun _ => .bind fun _ => .bind fun _ => .bind fun _ => ?_
    rw [ho]; rfl
  · iterate 9 rw [if_neg (by decide)]
    rw [if_pos rfl]
    iterate 9 rw [if_neg (by decide)]
    rw [if_pos rfl]
    refine .bind fun _ => .bind fun _ => .bind fun _ => .bind fun _ => .bind fun _ => .bind fun _ => .bind fun _ => ?_
    rw [ho]; rfl

/-- **C87 (reading registers).** When a call that reads registers returns the registers `ws`, then the same call with the data format `u` returns `struct.unpack(u, ...)` of the bytes
    of these registers, high byte first; for every text, master, channel and server. -/
theorem C87_reading (P : Platform F) (R : Registry) (mac : Mac) (ch : Chan σ) (s s' : MasterSt σ) (id : Int) (c : Call) (hc : ReadsRegisters c) (u : Text) (hu : u ≠ []) (ws : List Int)
    (h : execute R mac ch (Call.args id c) s = (.ok (.values ws), s')) :
    executeT P R mac ch ((Call.args id c).withText u) s = ((sUnpack P u (bytesOf ws)).map .values, s') := by
  rw [execute_exchange] at h
  rw [executeT_exchange]
  cases ho : masterOpen ch s with
  | mk r s1 =>
    rw [ho] at h
    cases r with
    | error e => cases h
    | ok o =>
      dsimp only at h ⊢
      have hdf : (Call.args id c).dataFormat = none := by cases c <;> rfl
      have hraw : (Call.args id c).returnsRaw = false := by cases c <;> rfl
      have hfc : (Call.args id c).functionCode = defines.READ_HOLDING_REGISTERS ∨ (Call.args id c).functionCode = defines.READ_INPUT_REGISTERS ∨
          (Call.args id c).functionCode = defines.READ_WRITE_MULTIPLE_REGISTERS := by
        cases c <;> first | exact hc.elim | (simp [Call.args, defines.READ_HOLDING_REGISTERS, defines.READ_INPUT_REGISTERS, defines.READ_WRITE_MULTIPLE_REGISTERS])
      have hs := prepareT_same P (Call.args id c) [] (by rw [hdf]; rfl)
      cases hp : prepare (Call.args id c) with
      | error e => rw [hp] at h; cases h
      | ok p =>
        rw [hp] at h hs
        obtain ⟨d, hs, -⟩ := hs
        dsimp only at h
        have hq : prepareT P ((Call.args id c).withText u) = _ := prepareT_reads P ((Call.args id c).withText []) u hu hfc
        rw [show prepareT P { ((Call.args id c).withText []) with dataFormat := [] } = prepareT P ((Call.args id c).withText []) from rfl, hs] at hq
        rw [hq]
        dsimp only [Except.map]
        rw [show ((Call.args id c).withText u (F := F)).slave = some id from args_slave c id]
        rw [args_slave c id] at h
        dsimp only at h ⊢
        cases hx : exchange R mac ch id p.pdu p.expectedLength s1 with
        | mk rx s2 =>
          rw [hx] at h
          cases rx with
          | error e => cases h
          | ok pdu =>
            have han : analyse (Call.args id c) p pdu = .ok (.values ws) := congrArg Prod.fst h
            have hs2 : s2 = s' := congrArg Prod.snd h
            subst hs2
            obtain ⟨-, hr, hd, n, hf⟩ := prepare_withFormat hc id (be []) hp
            have hfc20 : (Call.args id c).functionCode ≠ 20 := by
              cases c <;> first | exact hc.elim | (simp [Call.args])
            have hp2 : p = ⟨p.pdu, true, 0, some (be (List.replicate n.toNat Code.H)), p.expectedLength⟩ := by
              cases p; simp_all
            rw [hp2, analyse_regs _ _ _ _ _ hraw hfc20] at han
            obtain ⟨fc, count, data, rfl, hle, hcnt, hlen, hv⟩ := han
            have hw : data = bytesOf ws := by
              have := bytes_registers hlen
              cases hv
              exact this
            show (analyseT P _ _ _, s2) = _
            congr 1
            unfold analyseT
            rw [show slice (fc :: count :: data) 0 2 = [fc, count] from rfl, sUnpack_ints (f := be [Code.B, Code.B]) (t := ">BB".toList) rfl]
            have : structUnpack (be [Code.B, Code.B]) [fc, count] = .ok [(fc.toNat : Int), (count.toNat : Int)] := by
              have := unpack_bytes 2 [fc, count]
              simpa using this
            rw [this, except_map_ok, except_bind_ok]
            show (if (fc.toNat : Int) > 0x80 then _ else _) = _
            rw [if_neg (by omega)]
            dsimp only
            rw [if_pos hr, if_neg (by simp [hcnt]), except_bind_ok]
            unfold analyseDataT
            show (if (Call.args id c).returnsRaw = true then _ else _) = _
            rw [if_neg (by simp [hraw]), List.drop_succ_cons, List.drop_succ_cons, List.drop_zero, hw]
            dsimp only
            cases sUnpack P u (bytesOf ws) with
            | error e => rfl
            | ok vs =>
              rw [except_bind_ok, if_neg (by omega), except_bind_ok]
              show (if (Call.args id c).functionCode = _ then _ else _) = _
              rw [if_neg (by simpa [defines.READ_FILE_RECORD] using hfc20)]
              rfl

/-! ## Writing registers -/

theorem except_map_inv {α β ε : Type} {x : Except ε α} {f : α → β} {y : β} (h : x.map f = .ok y) : ∃ v, x = .ok v ∧ f v = y := by
  cases x with
  | error e => cases h
  | ok v => exact ⟨v, rfl, Except.ok.inj h⟩

theorem packItem_length {big : Bool} {i : Item} {v : PyVal F} {bs : Bytes} (h : packItem P big i v = .ok bs) : bs.length = i.size := by
  unfold packItem at h
  split at h
  · split at h
    · exact packOne_length h
    · cases h
  · cases h; rfl
  · cases h; rfl
  · cases h; simp [Item.size]; omega
  · split at h
    · obtain ⟨y, hy, rfl⟩ := except_map_inv h
      have := P.pack_length _ _ _ hy
      show (if big = true then y else y.reverse).length = _
      split
      · exact this
      · rw [List.length_reverse]; exact this
    · cases h
  · cases h

theorem packItems_length {big : Bool} {is : List Item} {vs : List (PyVal F)} {bs : Bytes} (h : packItems P big is vs = .ok bs) : bs.length = (is.map Item.size).sum := by
  induction is generalizing vs bs with
  | nil => cases vs with
    | nil => cases h; rfl
    | cons v vs => cases h
  | cons i is ih =>
    by_cases hi : ∃ n, i = .pad n
    · obtain ⟨n, rfl⟩ := hi
      rw [packItems] at h
      obtain ⟨y, hy, rfl⟩ := except_map_inv h
      simp [ih hy, Item.size]
    · have hi' : ∀ n, i = .pad n → False := fun n h => hi ⟨n, h⟩
      cases vs with
      | nil => cases i <;> first | exact absurd ⟨_, rfl⟩ hi | cases h
      | cons v vs =>
        rw [packItems.eq_3 _ _ _ _ _ _ hi'] at h
        obtain ⟨x, hx, h⟩ := except_bind_inv h
        obtain ⟨y, hy, h⟩ := except_bind_inv h
        cases h
        simp [packItem_length hx, ih hy]

/-- `struct.calcsize` is the size of what `struct.pack` returns -/
theorem C87_calcsize {t : Text} {vs : List (PyVal F)} {bs : Bytes} (h : sPack P t vs = .ok bs) : sCalcsize P t = .ok bs.length := by
  unfold sPack at h
  obtain ⟨l, hl, h⟩ := except_bind_inv h
  unfold sCalcsize
  rw [hl, except_map_ok]
  split at h
  · rw [packItems_length h]; rfl
  · cases h

/-- `execute(slave, WRITE_MULTIPLE_REGISTERS, a, output_value=vs, data_format=t)` -/
def writeText (id a : Int) (t : Text) (vs : List (PyVal F)) : ExecArgsT F :=
  { slave := some id, functionCode := 16, startingAddress := .one (.int a), outputValue := .seq vs, dataFormat := t }

theorem prepareT_writeText (P : Platform F) (id a : Int) (t : Text) (vs : List (PyVal F)) (ht : t ≠ []) (hv : vs ≠ []) :
    prepareT P (writeText id a t vs) = (do
      let k ← sCalcsize P t
      let hd ← structPack (be [Code.B, Code.H, Code.H, Code.B]) [16, a, (k : Int) / 2, k]
      let bs ← sPack P t vs
      return ⟨hd ++ bs, false, 0, ">HH".toList, 8⟩) := by
  have hc : (writeText id a t vs).outputValue.truth P ∧ (writeText id a t vs).dataFormat ≠ [] := ⟨by simpa [writeText, ArgV.truth] using hv, ht⟩
  unfold prepareT
  have h16 : (writeText id a t vs).functionCode = 16 := rfl
  rw [if_neg (by rw [h16]; decide), if_neg (by rw [h16]; decide), if_neg (by rw [h16]; decide), if_neg (by rw [h16]; decide), if_neg (by rw [h16]; decide), if_neg (by rw [h16]; decide),
    if_pos h16, if_pos hc]
  rw [show (writeText id a t vs).dataFormat = t from rfl]
  cases sCalcsize P t with
  | error e => rfl
  | ok k =>
    rw [except_map_ok, except_bind_ok, except_bind_ok]
    show (sPack P ">BHHB".toList [.int 16, .int a, .int ((k : Int) / 2), .int k] >>= _) = _
    rw [sPack_BHHB]
    cases structPack (be [Code.B, Code.H, Code.H, Code.B]) [16, a, (k : Int) / 2, k] with
    | error e => rfl
    | ok hd =>
      rw [except_bind_ok, except_bind_ok]
      rw [show (writeText id a t vs).outputValue.items = .ok vs from rfl, except_bind_ok, if_pos ⟨hc.1, ht⟩]
      show ((sPack P t vs).map _ >>= _) = _
      cases sPack P t vs <;> rfl

/-- the pdu of a write with a data format, and of no other size -/
theorem prepareT_writes (P : Platform F) (id a : Int) (t : Text) (vs : List (PyVal F)) (ht : t ≠ []) (hv : vs ≠ []) :
    (∃ bs, sPack P t vs = .ok bs ∧ Fits16 a ∧ bs.length ≤ 255 ∧ prepareT P (writeText id a t vs) =
      .ok ⟨(Spec.Req.writeRegisters (toWord a) (UInt16.ofNat (bs.length / 2)) (UInt8.ofNat bs.length) bs).encode, false, 0, ">HH".toList, 8⟩) ∨
    ((∀ bs, sPack P t vs = .ok bs → ¬ (Fits16 a ∧ bs.length ≤ 255)) ∧ ∃ e, prepareT P (writeText id a t vs) = .error e) := by
  rw [prepareT_writeText P id a t vs ht hv]
  cases hk : sCalcsize P t with
  | error e =>
    refine .inr ⟨fun bs h => ?_, e, rfl⟩
    rw [C87_calcsize h] at hk; cases hk
  | ok k =>
    rw [except_bind_ok, structPack_BHHB]
    by_cases hf : Fits8 16 ∧ Fits16 a ∧ Fits16 ((k : Int) / 2) ∧ Fits8 (k : Int)
    · rw [if_pos hf, except_bind_ok]
      cases hp : sPack P t vs with
      | error e => exact .inr ⟨fun bs h => (by cases h), e, rfl⟩
      | ok bs =>
        have := C87_calcsize hp
        rw [hk] at this
        cases this
        refine .inl ⟨bs, rfl, hf.2.1, by have := hf.2.2.2; unfold Spec.Fits8 at this; omega, ?_⟩
        rw [except_bind_ok]
        have h1 : toWord ((bs.length : Int) / 2) = UInt16.ofNat (bs.length / 2) := by
          unfold Spec.toWord
          have := hf.2.2.2
          unfold Spec.Fits8 at this
          rw [show ((bs.length : Int) / 2 % 65536).toNat = bs.length / 2 by omega]
        have h2 : toByte (bs.length : Int) = UInt8.ofNat bs.length := by
          unfold Spec.toByte
          have := hf.2.2.2
          unfold Spec.Fits8 at this
          rw [show ((bs.length : Int) % 256).toNat = bs.length by omega]
        rw [h1, h2]
        simp only [Spec.Req.encode, toByte, List.cons_append, List.append_assoc]
        rfl
    · rw [if_neg hf]
      refine .inr ⟨fun bs h => ?_, _, rfl⟩
      rw [C87_calcsize h] at hk
      cases hk
      intro ⟨h1, h2⟩
      exact hf ⟨by decide, h1, by unfold Spec.Fits16; omega, by unfold Spec.Fits8; omega⟩

/-- **C87 (writes that are not sent).** A write with a data format is sent only when `struct.pack(t, *vs)` succeeds, with at most 255 bytes, and the address is one; otherwise the call
    raises and the connection is as it is after `open`: nothing was sent, and no transaction number was used. -/
theorem C87_not_sent (P : Platform F) (R : Registry) (mac : Mac) (ch : Chan σ) (s s1 : MasterSt σ) (ho : masterOpen ch s = (.ok (), s1)) (id a : Int) (t : Text) (vs : List (PyVal F))
    (ht : t ≠ []) (hv : vs ≠ []) (h : ∀ bs, sPack P t vs = .ok bs → ¬ (Fits16 a ∧ bs.length ≤ 255)) :
    ∃ e, executeT P R mac ch (writeText id a t vs) s = (.error e, s1) := by
  rw [executeT_exchange, ho]
  dsimp only
  rcases prepareT_writes P id a t vs ht hv with ⟨bs, h1, h2, h3, -⟩ | ⟨-, e, he⟩
  · exact absurd ⟨h2, h3⟩ (h bs h1)
  · rw [he]; exact ⟨e, rfl⟩

/-! ## One exchange with a server -/

theorem exchange_main {R : Registry} (hR : Quiet R) {mac : Mac} {ch : Chan σ} {s1 s2 : MasterSt σ} {pdu : Bytes} {n slave : Int} {request : Bytes} {q : mac.Q}
    (hb : buildRequest mac pdu slave s1 = (.ok (request, q), s2)) :
    exchange R mac ch slave pdu n s1 =
      match ch.send request s2.link with
      | (.error e, l) => (.error e, { s2 with link := l })
      | (.ok _, l) => match ch.recv n l with
        | (.error e, l') => (.error e, { s2 with link := l' })
        | (.ok resp, l') => ((mac.parseResponse resp q).1, { s2 with link := l' }) := by
  simp only [exchange, PyM.bind_apply, PyM.lift_apply, hb, hR _ _, Option.getD_none, onLink]
  cases h1 : ch.send request s2.link with
  | mk r1 l =>
    cases r1 with
    | error e => rfl
    | ok _ =>
      dsimp only
      cases h2 : ch.recv n l with
      | mk r2 l' =>
        cases r2 with
        | error e => rfl
        | ok resp => rfl

theorem exchange_tcp (R : Registry) (hR : Quiet R) (id : Int) (h0 : 1 ≤ id) (h1 : id ≤ 255) (sl : Slave) (r : Refs) (s : MasterSt Net) (hs : Ready id sl r s) (req : Spec.Req)
    (hwf : req.WF) (hl : req.encode.length ≤ 65534) (hm : sl.unsigned = true ∨ ∀ a am om, req ≠ .maskWrite a am om) (n : Int) :
    ∃ s', exchange R tcpMac (serverLink R tcpMac) id req.encode n s = (.ok ((Spec.exec sl.unsigned (absMem s.link.heap sl) req).1.encode req.fc), s') ∧
      absMem s'.link.heap sl = (Spec.exec sl.unsigned (absMem s.link.heap sl) req).2 ∧ Ready id sl r s' := by
  obtain ⟨q, hb, q1, q2, q3⟩ := buildRequest_tcp (pdu := req.encode) hl (by omega : 0 ≤ id) h1 (s := s) hs.tid
  rw [exchange_main hR hb]
  generalize htid : UInt16.ofNat ((s.lastTid + 1) % 65536).toNat = tid
  rw [htid] at q1
  have hid : ((UInt8.ofNat id.toNat).toNat : Int) = id := by
    rw [UInt8.toNat_ofNat', Nat.mod_eq_of_lt (by omega)]; omega
  generalize hu : UInt8.ofNat id.toNat = unit at hid q3
  obtain ⟨h', e1, e2, e3, _⟩ := handler_refines hR hs.good req hwf hm
  have hrl := reply_length sl.unsigned (absMem s.link.heap sl) req
  generalize hrep : (Spec.exec sl.unsigned (absMem s.link.heap sl) req).1.encode req.fc = rep at e1 hrl ⊢
  have hpr : tcpMac.parseRequest (tcpAdu tid 0 unit req.encode) tcpMac.new = _ :=
    tcpParseRequest_adu tid 0 unit hl (tcpMac.new : TcpQuery)
  have e4 := tcpBuildResponse_adu tid 0 unit (pdu := rep) (by omega)
    ({ (tcpMac.new : TcpQuery) with request := ⟨tid.toNat, (0 : UInt16).toNat, req.encode.length + 1, unit.toNat⟩ }) ⟨_, rfl⟩
  have hdb : dbHandle R tcpMac s.link.db (tcpAdu tid 0 unit req.encode) s.link.heap = (.ok (some (tcpAdu tid 0 unit rep)), h') :=
    dbHandle_some hpr (by omega) (by rw [hid]; exact hs.known) e1 e4
  have hsend : (serverLink R tcpMac).send (tcpAdu tid 0 unit req.encode) s.link =
      (.ok (), { s.link with heap := h', back := tcpAdu tid 0 unit rep }) := by
    show (match serverHandle R tcpMac s.link.db _ s.link.heap with
      | (.ok r, h) => ((Except.ok () : Except PyErr Unit), { s.link with heap := h, back := s.link.back ++ r.getD [] })
      | (.error _, h) => (.ok (), { s.link with heap := h })) = _
    rw [serverHandle_quiet hR, hdb]
    dsimp only
    rw [hs.clean]
    rfl
  have hrecv : ∀ n, (serverLink R tcpMac).recv n { s.link with heap := h', back := tcpAdu tid 0 unit rep } =
      (.ok (tcpAdu tid 0 unit rep), { s.link with heap := h', back := [] }) := by
    intro n
    exact serverLink_recv R tcpMac n _ (by simp [tcpAdu, word])
  have hparse := (C24_accepts (tcpAdu tid 0 unit rep) q rep).mpr ⟨_, _, _, rfl, by omega, q1, q2, q3⟩
  rw [hsend]
  dsimp only
  rw [hrecv]
  dsimp only
  rw [show (tcpMac.parseResponse (tcpAdu tid 0 unit rep) q).1 = _ from hparse]
  exact ⟨_, rfl, e2, ⟨hs.known, e3, rfl, by dsimp only; omega⟩⟩

theorem exchange_rtu (R : Registry) (hR : Quiet R) (id : Int) (h0 : 1 ≤ id) (h1 : id ≤ 255) (sl : Slave) (r : Refs) (s : MasterSt Net) (hs : Ready id sl r s) (req : Spec.Req)
    (hwf : req.WF) (hm : sl.unsigned = true ∨ ∀ a am om, req ≠ .maskWrite a am om) (n : Int) :
    ∃ s', exchange R rtuMac (serverLink R rtuMac) id req.encode n s = (.ok ((Spec.exec sl.unsigned (absMem s.link.heap sl) req).1.encode req.fc), s') ∧
      absMem s'.link.heap sl = (Spec.exec sl.unsigned (absMem s.link.heap sl) req).2 ∧ Ready id sl r s' := by
  obtain ⟨q, hb, q1⟩ := buildRequest_rtu (pdu := req.encode) (by omega : 0 ≤ id) h1 (s := s)
  rw [exchange_main hR hb]
  have hid : ((UInt8.ofNat id.toNat).toNat : Int) = id := by
    rw [UInt8.toNat_ofNat', Nat.mod_eq_of_lt (by omega)]; omega
  generalize hu : UInt8.ofNat id.toNat = unit at hid q1
  obtain ⟨h', e1, e2, e3, _⟩ := handler_refines hR hs.good req hwf hm
  generalize hrep : (Spec.exec sl.unsigned (absMem s.link.heap sl) req).1.encode req.fc = rep at e1 ⊢
  have hpr : rtuMac.parseRequest (rtuAdu unit req.encode) rtuMac.new = _ :=
    rtuParseRequest_adu unit req.encode (rtuMac.new : RtuQuery)
  have e4 := rtuBuildResponse_adu unit rep ({ (rtuMac.new : RtuQuery) with requestAddress := (unit.toNat : Int) }) rfl
  have hdb : dbHandle R rtuMac s.link.db (rtuAdu unit req.encode) s.link.heap = (.ok (some (rtuAdu unit rep)), h') :=
    dbHandle_some hpr (by omega) (by rw [hid]; exact hs.known) e1 e4
  have hsend : (serverLink R rtuMac).send (rtuAdu unit req.encode) s.link =
      (.ok (), { s.link with heap := h', back := rtuAdu unit rep }) := by
    show (match serverHandle R rtuMac s.link.db _ s.link.heap with
      | (.ok r, h) => ((Except.ok () : Except PyErr Unit), { s.link with heap := h, back := s.link.back ++ r.getD [] })
      | (.error _, h) => (.ok (), { s.link with heap := h })) = _
    rw [serverHandle_quiet hR, hdb]
    dsimp only
    rw [hs.clean]
    rfl
  have hrecv : ∀ n, (serverLink R rtuMac).recv n { s.link with heap := h', back := rtuAdu unit rep } =
      (.ok (rtuAdu unit rep), { s.link with heap := h', back := [] }) := by
    intro n
    exact serverLink_recv R rtuMac n _ (by simp [rtuAdu])
  have hparse := ((C25_response (rtuAdu unit rep) q).1 rep).mpr ⟨_, rfl, q1⟩
  rw [hsend]
  dsimp only
  rw [hrecv]
  dsimp only
  rw [show (rtuMac.parseResponse (rtuAdu unit rep) q).1 = _ from hparse]
  exact ⟨_, rfl, e2, ⟨hs.known, e3, rfl, hs.tid⟩⟩

/-- A request that is well formed, sent as it is to a server that has the slave: the response is the one the specification prescribes. -/
theorem exchange_server (R : Registry) (hR : Quiet R) (mac : Mac) (hmac : mac = tcpMac ∨ mac = rtuMac) (id : Int) (h0 : 1 ≤ id) (h1 : id ≤ 255) (sl : Slave) (r : Refs) (s : MasterSt Net)
    (hs : Ready id sl r s) (req : Spec.Req) (hwf : req.WF) (hl : req.encode.length ≤ 65534) (hm : sl.unsigned = true ∨ ∀ a am om, req ≠ .maskWrite a am om) (n : Int) :
    ∃ s', exchange R mac (serverLink R mac) id req.encode n s = (.ok ((Spec.exec sl.unsigned (absMem s.link.heap sl) req).1.encode req.fc), s') ∧
      absMem s'.link.heap sl = (Spec.exec sl.unsigned (absMem s.link.heap sl) req).2 ∧ Ready id sl r s' := by
  rcases hmac with rfl | rfl
  · exact exchange_tcp R hR id h0 h1 sl r s hs req hwf hl hm n
  · exact exchange_rtu R hR id h0 h1 sl r s hs req hwf hm n

/-! ## Writing registers at a server -/

/-- What a write of the bytes `bs` from register `a` on comes to: the result of the call, and the memory of the slave. -/
def writeOutcome (unsigned : Bool) (m : Spec.Mem) (a : Int) (bs : Bytes) : Except PyErr (ExecResultT F) × Spec.Mem :=
  if bs.length % 2 = 1 ∨ bs.length = 0 ∨ bs.length > 246 then (.error (.modbusError 3), m)
  else if m.holding.covers a (bs.length / 2) then
    (.ok (.values [.int a, .int (bs.length / 2 : Nat)]), { m with holding := m.holding.write a (Spec.payloadValues unsigned bs (bs.length / 2)) })
  else (.error (.modbusError 2), m)

theorem analyseT_args {a b : ExecArgsT F} (hf : a.functionCode = b.functionCode) (hr : a.returnsRaw = b.returnsRaw) (p : PreparedT) (pdu : Bytes) : analyseT P a p pdu = analyseT P b p pdu := by
  simp only [analyseT, analyseDataT, hf, hr]

/-- the analysis of the responses to a write -/
theorem analyseT_write (P : Platform F) (id a : Int) (t : Text) (vs : List (PyVal F)) (e : Bytes) (n : Int) (pdu : Bytes) :
    analyseT P (writeText id a t vs) ⟨e, false, 0, ">HH".toList, n⟩ pdu =
      (analyse (Call.args id (.writeRegisters 0 [])) ⟨e, false, 0, some (be [Code.H, Code.H]), n⟩ pdu).map ExecResult.vals := by
  have h := analyseT_same (P := P) (Call.args id (.writeRegisters 0 [])) [] ⟨e, false, 0, some (be [Code.H, Code.H]), n⟩ ">HH".toList ⟨by decide, rfl⟩ pdu
  rw [← h]
  exact analyseT_args rfl rfl _ _

/-- **C87 (writes).** A write whose data format packs the values to an even number of bytes does what the write of these bytes as registers does, high byte first, for every channel and
    server. -/
theorem C87_write (P : Platform F) (R : Registry) (mac : Mac) (ch : Chan σ) (s : MasterSt σ) (id a : Int) (ha : Fits16 a) (t : Text) (ht : t ≠ []) (vs : List (PyVal F)) (hv : vs ≠ [])
    (bs : Bytes) (hp : sPack P t vs = .ok bs) (n : Nat) (hn : bs.length = 2 * n) (h8 : n ≤ 127) :
    executeT P R mac ch (writeText id a t vs) s = conclude (execute R mac ch (Call.args id (.writeRegisters a (registersOf bs))) s) (fun r => .ok r.vals) := by
  rw [executeT_exchange, execute_exchange]
  cases masterOpen ch s with
  | mk r s1 =>
    cases r with
    | error e => rfl
    | ok u =>
      dsimp only
      rcases prepareT_writes P id a t vs ht hv with ⟨bs', hp', -, -, hq⟩ | ⟨hnot, -⟩
      swap
      · exact absurd ⟨ha, by omega⟩ (hnot bs hp)
      rw [hp] at hp'
      cases hp'
      rw [hq]
      have hlen : (registersOf bs).length = n := by simp [registersOf, hn]
      have hb := bytes_registers hn
      have hr : registersOf bs = (List.range n).map (fun i => ((wordAt bs i).toNat : Int)) := by
        unfold registersOf; rw [show bs.length / 2 = n by omega]
      rw [← hr] at hb
      rw [prepare_writeRegisters, if_pos ⟨ha, ⟨by omega, by omega⟩, fun v hv => ⟨by have := registersOf_fits bs v hv; omega, (registersOf_fits bs v hv).2⟩⟩]
      have hpdu : (Call.prepared (.writeRegisters a (registersOf bs))).pdu =
          (Spec.Req.writeRegisters (toWord a) (UInt16.ofNat (bs.length / 2)) (UInt8.ofNat bs.length) bs).encode := by
        simp only [Call.prepared, Call.pdu, Spec.Req.encode, hlen]
        unfold bytesOf at *
        rw [← hb]
        have e1 : toWord (n : Int) = UInt16.ofNat (bs.length / 2) := by
          unfold Spec.toWord
          rw [show ((n : Int) % 65536).toNat = bs.length / 2 by omega]
        have e2 : toByte (2 * (n : Int)) = UInt8.ofNat bs.length := by
          unfold Spec.toByte
          rw [show (2 * (n : Int) % 256).toNat = bs.length by omega]
        rw [e1, e2]
      rw [show (writeText id a t vs).slave = some id from rfl, show (Call.args id (.writeRegisters a (registersOf bs))).slave = some id from rfl]
      dsimp only
      rw [conclude_map, ← hpdu]
      congr 1
      funext pdu
      rw [analyseT_write]
      rfl

/-- **C87 (writes at a server).** What a write with a data format comes to, for every text and values: only formats of 2, 4, ..., 246 bytes are written; other sizes that fit in the
    request are refused by the server with exception 3 and leave its memory unchanged. -/
theorem C87_written (P : Platform F) (R : Registry) (hR : Quiet R) (mac : Mac) (hmac : mac = tcpMac ∨ mac = rtuMac) (id : Int) (h0 : 1 ≤ id) (h1 : id ≤ 255) (sl : Slave) (r : Refs)
    (s : MasterSt Net) (hs : Ready id sl r s) (a : Int) (ha : Fits16 a) (t : Text) (ht : t ≠ []) (vs : List (PyVal F)) (hv : vs ≠ []) (bs : Bytes) (hp : sPack P t vs = .ok bs)
    (hb : bs.length ≤ 255) :
    ∃ s', executeT P R mac (serverLink R mac) (writeText id a t vs) s = ((writeOutcome sl.unsigned (absMem s.link.heap sl) a bs).1, s') ∧
      absMem s'.link.heap sl = (writeOutcome (F := F) sl.unsigned (absMem s.link.heap sl) a bs).2 ∧ Ready id sl r s' := by
  rw [executeT_exchange, open_serverLink]
  dsimp only
  rcases prepareT_writes P id a t vs ht hv with ⟨bs', hp', -, -, hq⟩ | ⟨hn, -⟩
  swap
  · exact absurd ⟨ha, hb⟩ (hn bs hp)
  rw [hp] at hp'
  cases hp'
  rw [hq]
  dsimp only
  rw [show (writeText id a t vs).slave = some id from rfl]
  dsimp only
  have hs1 : Ready id sl r { s with isOpened := true } := ⟨hs.known, hs.good, hs.clean, hs.tid⟩
  have hbc : (UInt8.ofNat bs.length).toNat = bs.length := by rw [UInt8.toNat_ofNat', Nat.mod_eq_of_lt (by omega)]
  have hqn : (UInt16.ofNat (bs.length / 2)).toNat = bs.length / 2 := by rw [UInt16.toNat_ofNat', Nat.mod_eq_of_lt (by omega)]
  have htoNat : ((toWord a).toNat : Int) = a := toWord_toNat ha
  obtain ⟨s', e1, e2, e3⟩ := exchange_server R hR mac hmac id h0 h1 sl r _ hs1 (.writeRegisters (toWord a) (UInt16.ofNat (bs.length / 2)) (UInt8.ofNat bs.length) bs) hbc.symm
    (by simp [Spec.Req.encode, word]; omega) (.inr fun _ _ _ h => by cases h) 8
  rw [e1]
  refine ⟨s', ?_, ?_, e3⟩
  · show (analyseT P _ _ _, s') = _
    congr 1
    rw [analyseT_write]
    unfold writeOutcome
    simp only [Spec.exec, hqn, hbc, htoNat]
    by_cases hc : bs.length % 2 = 1 ∨ bs.length = 0 ∨ bs.length > 246
    · rw [if_pos (by omega), if_pos hc]
      show (analyse _ _ [144, 3]).map _ = _
      rw [analyse_exception _ _ _ _ _ (by decide)]
      rfl
    · rw [if_neg (by omega), if_neg hc]
      by_cases hcov : (absMem s.link.heap sl).holding.covers a (bs.length / 2) = true
      · rw [if_neg (by simp [hcov]), if_pos hcov]
        show (analyse _ _ (16 :: (word (toWord a) ++ word (UInt16.ofNat (bs.length / 2))))).map _ = _
        rw [analyse_echo2 _ _ _ rfl (by simp [Call.args]) (by simp [Call.args]) 16 (by decide)]
        simp only [except_map_ok, ExecResult.vals, List.map_cons, List.map_nil, htoNat, hqn]
      · rw [if_pos (by simpa using hcov), if_neg hcov]
        show (analyse _ _ [144, 2]).map _ = _
        rw [analyse_exception _ _ _ _ _ (by decide)]
        rfl
  · rw [e2]
    unfold writeOutcome
    simp only [Spec.exec, hqn, hbc, htoNat]
    by_cases hc : bs.length % 2 = 1 ∨ bs.length = 0 ∨ bs.length > 246
    · rw [if_pos (by omega), if_pos hc]
    · rw [if_neg (by omega), if_neg hc]
      by_cases hcov : (absMem s.link.heap sl).holding.covers a (bs.length / 2) = true
      · rw [if_neg (by simp [hcov]), if_pos hcov]
      · rw [if_pos (by simpa using hcov), if_neg hcov]

/-- **C87 (two formats).** What was written with one data format can be read with another: `struct.unpack(u, ...)` of the packed bytes. -/
theorem C87_two_texts (P : Platform F) (R : Registry) (hR : Quiet R) (mac : Mac) (hmac : mac = tcpMac ∨ mac = rtuMac) (id : Int) (h0 : 1 ≤ id)
    (h1 : id ≤ 255) (sl : Slave) (r : Refs) (s : MasterSt Net) (hs : Ready id sl r s) (a : Int) (ha : Fits16 a) (t u : Text) (ht : t ≠ []) (hu : u ≠ [])
    (vs : List (PyVal F)) (bs : Bytes) (hv : vs ≠ []) (hp : sPack P t vs = .ok bs) (n : Nat) (hn : bs.length = 2 * n) (hn1 : 1 ≤ n)
    (hn2 : n ≤ 123) (hcov : (absMem s.link.heap sl).holding.covers a n = true) :
    ∃ s1 s2, executeT P R mac (serverLink R mac) (writeText id a t vs) s = (.ok (.values [.int a, .int n]), s1) ∧
      executeT P R mac (serverLink R mac) ((Call.args id (.readHolding a n)).withText u) s1 = ((sUnpack P u bs).map .values, s2) := by
  have hlen : (registersOf bs).length = n := by simp [registersOf, hn]
  have hreg := C33_registers R hR mac hmac id h0 h1 sl r s hs a (registersOf bs) ha (by rw [hlen]; exact ⟨hn1, hn2⟩)
    (fun v hv => ⟨by have := registersOf_fits bs v hv; omega, (registersOf_fits bs v hv).2⟩) (by rw [hlen]; exact hcov)
  rw [hlen] at hreg
  simp only [runCalls, List.cons.injEq, and_true] at hreg
  obtain ⟨hw, hrd⟩ := hreg
  have hmod : (registersOf bs).map (fun v => v % 65536) = registersOf bs := by
    conv_rhs => rw [← List.map_id (registersOf bs)]
    apply List.map_congr_left
    intro v hv
    have := registersOf_fits bs v hv
    simp only [id_eq]
    omega
  rw [hmod] at hrd
  have hread := C87_reading P R mac (serverLink R mac) _ _ id (.readHolding a n) trivial u hu (registersOf bs) (Prod.ext hrd rfl)
  have hb : bytesOf (registersOf bs) = bs := by
    have := bytes_registers hn
    unfold bytesOf registersOf
    rw [show bs.length / 2 = n by omega]
    exact this.symm
  rw [hb] at hread
  refine ⟨_, _, ?_, hread⟩
  rw [C87_write P R mac (serverLink R mac) s id a ha t ht vs hv bs hp n hn (by omega)]
  cases he : execute R mac (serverLink R mac) (Call.args id (.writeRegisters a (registersOf bs))) s with
  | mk x s1 =>
    rw [he] at hw
    dsimp only at hw
    rw [hw]
    rfl

end Modbus
