import Verif.Spec.Calls
import Verif.Lemmas.Records
/- `prepare` on the calls of the specification. -/
namespace Modbus
open Spec (word toWord bytesFor packBits Fits8 Fits16 FitsReg toByte Call)

instance (c : Call) : Decidable c.Fits := by
  cases c <;> unfold Call.Fits <;> infer_instance

theorem nbBytes_eq (n : Nat) : nbBytes (n : Int) = bytesFor n := by
  unfold nbBytes bytesFor
  split <;> omega

/-- what `execute` prepares for a call that fits -/
def Spec.Call.prepared : Call → Prepared
  | .readCoils a q => ⟨(Call.readCoils a q).pdu, true, q, some (be (List.replicate (nbBytes q).toNat Code.B)), nbBytes q + 5⟩
  | .readDiscrete a q =>
      ⟨(Call.readDiscrete a q).pdu, true, q, some (be (List.replicate (nbBytes q).toNat Code.B)), nbBytes q + 5⟩
  | .readHolding a q => ⟨(Call.readHolding a q).pdu, true, 0, some (be (List.replicate q.toNat Code.H)), 2 * q + 5⟩
  | .readInput a q => ⟨(Call.readInput a q).pdu, true, 0, some (be (List.replicate q.toNat Code.H)), 2 * q + 5⟩
  | .writeCoil a v => ⟨(Call.writeCoil a v).pdu, false, 0, some (be [Code.H, Code.H]), 8⟩
  | .writeRegister a v => ⟨(Call.writeRegister a v).pdu, false, 0, some (be [Code.H, Code.H]), 8⟩
  | .readExceptionStatus => ⟨Call.readExceptionStatus.pdu, false, 0, some (be [Code.B]), 5⟩
  | .diagnostic sub data =>
      if data = [] then ⟨(Call.diagnostic sub data).pdu, false, 0, none, -1⟩
      else ⟨(Call.diagnostic sub data).pdu, false, 0, some (be (List.replicate data.length Code.B)), data.length + 6⟩
  | .writeCoils a vs => ⟨(Call.writeCoils a vs).pdu, false, 0, some (be [Code.H, Code.H]), 8⟩
  | .writeRegisters a vs => ⟨(Call.writeRegisters a vs).pdu, false, 0, some (be [Code.H, Code.H]), 8⟩
  | .readFileRecord rs => ⟨(Call.readFileRecord rs).pdu, true, 0, some (recordFormat (rs.map (·.len))),
      2 * (rs.map (·.len)).sum + 2 * rs.length + 5⟩
  | .maskWrite a am om => ⟨(Call.maskWrite a am om).pdu, false, 0, some (be [Code.H, Code.H, Code.H]), 10⟩
  | .readWrite ra rq wa vs =>
      ⟨(Call.readWrite ra rq wa vs).pdu, true, 0, some (be (List.replicate rq.toNat Code.H)), 2 * rq + 5⟩
  | .deviceInfo code object => ⟨(Call.deviceInfo code object).pdu, false, 0, none, -1⟩

theorem prepare_readBits (fc : Int) (hfc : fc = 1 ∨ fc = 2) (s a q : Int) :
    prepare { slave := some s, functionCode := fc, startingAddress := .int a, quantity := .int q } =
      if Fits16 a ∧ Fits16 q then
        .ok ⟨toByte fc :: (word (toWord a) ++ word (toWord q)), true, q,
          some (be (List.replicate (nbBytes q).toNat Code.B)), nbBytes q + 5⟩
      else .error .structError := by
  unfold prepare
  rw [if_pos (by simpa [defines.READ_COILS, defines.READ_DISCRETE_INPUTS] using hfc)]
  dsimp only [Arg.num]
  rw [except_bind_ok, except_bind_ok, structPack_BHH]
  have h8 : Fits8 fc := by rcases hfc with rfl | rfl <;> decide
  by_cases h : Fits16 a ∧ Fits16 q
  · rw [if_pos ⟨h8, h⟩, except_bind_ok, if_pos h]
    rfl
  · rw [if_neg (fun hh => h hh.2), except_bind_error, if_neg h]

theorem prepare_readRegs (fc : Int) (hfc : fc = 3 ∨ fc = 4) (s a q : Int) :
    prepare { slave := some s, functionCode := fc, startingAddress := .int a, quantity := .int q } =
      if Fits16 a ∧ Fits16 q then
        .ok ⟨toByte fc :: (word (toWord a) ++ word (toWord q)), true, 0,
          some (be (List.replicate q.toNat Code.H)), 2 * q + 5⟩
      else .error .structError := by
  unfold prepare
  rw [if_neg (by simp [defines.READ_COILS, defines.READ_DISCRETE_INPUTS]; omega),
    if_pos (by simp [defines.READ_INPUT_REGISTERS, defines.READ_HOLDING_REGISTERS]; omega)]
  dsimp only [Arg.num]
  rw [except_bind_ok, except_bind_ok, structPack_BHH]
  have h8 : Fits8 fc := by rcases hfc with rfl | rfl <;> decide
  by_cases h : Fits16 a ∧ Fits16 q
  · rw [if_pos ⟨h8, h⟩, except_bind_ok, if_pos h]
    rfl
  · rw [if_neg (fun hh => h hh.2), except_bind_error, if_neg h]


/-- choose the branch of `prepare` for a literal function code -/
macro "prep_branch" : tactic => `(tactic| simp only [prepare, Call.args, defines.READ_COILS, defines.READ_DISCRETE_INPUTS,
  defines.READ_HOLDING_REGISTERS, defines.READ_INPUT_REGISTERS, defines.WRITE_SINGLE_COIL, defines.WRITE_SINGLE_REGISTER,
  defines.READ_EXCEPTION_STATUS, defines.DIAGNOSTIC, defines.WRITE_MULTIPLE_COILS, defines.WRITE_MULTIPLE_REGISTERS,
  defines.READ_FILE_RECORD, defines.READ_WRITE_MULTIPLE_REGISTERS, defines.DEVICE_INFO, defines.MASK_WRITE_REGISTER,
  defines.RAW, Int.reduceEq, Int.reduceNeg, or_self, or_false, false_or, or_true, true_or, reduceIte])

theorem prepare_writeCoil (s a v : Int) :
    prepare (Call.args s (.writeCoil a v)) =
      if Fits16 a then .ok (Call.prepared (.writeCoil a v)) else .error .structError := by
  prep_branch
  rw [except_bind_ok]
  dsimp only [Arg.num]
  rw [except_bind_ok, structPack_BHH]
  by_cases hv : v = 0
  · subst hv
    simp only [ne_eq, not_true_eq_false, reduceIte]
    by_cases h : Fits16 a
    · rw [if_pos ⟨by decide, h, by decide⟩, except_bind_ok, if_pos h]; rfl
    · rw [if_neg (fun hh => h hh.2.1), except_bind_error, if_neg h]
  · have hne : ¬ Arg.int v = Arg.int 0 := by simpa using hv
    simp only [ne_eq, hne, not_false_eq_true, reduceIte]
    by_cases h : Fits16 a
    · rw [if_pos ⟨by decide, h, by decide⟩, except_bind_ok, if_pos h]
      simp only [Call.prepared, Call.pdu, if_neg hv]; rfl
    · rw [if_neg (fun hh => h hh.2.1), except_bind_error, if_neg h]

theorem prepare_writeRegister (s a v : Int) :
    prepare (Call.args s (.writeRegister a v)) =
      if Fits16 a ∧ FitsReg v then .ok (Call.prepared (.writeRegister a v)) else .error .structError := by
  prep_branch
  dsimp only [Arg.num]
  rw [except_bind_ok, except_bind_ok]
  dsimp only
  rw [structPack_BHs]
  by_cases h : Fits16 a ∧ FitsReg v
  · rw [if_pos ⟨by decide, h⟩, except_bind_ok, if_pos h]; rfl
  · rw [if_neg (fun hh => h hh.2), except_bind_error, if_neg h]

theorem prepare_readExceptionStatus (s : Int) :
    prepare (Call.args s .readExceptionStatus) = .ok (Call.prepared .readExceptionStatus) := rfl

theorem prepare_diagnostic (s sub : Int) (data : List Int) :
    prepare (Call.args s (.diagnostic sub data)) =
      if Fits16 sub ∧ ∀ v ∈ data, Fits8 v then .ok (Call.prepared (.diagnostic sub data)) else .error .structError := by
  prep_branch
  dsimp only [Arg.num, Arg.len, Arg.items]
  rw [except_bind_ok, structPack_BH]
  by_cases h : Fits16 sub
  · rw [if_pos ⟨by decide, h⟩, except_bind_ok, except_bind_ok, except_bind_ok]
    by_cases hd : data = []
    · subst hd
      rw [if_neg (by simp), if_pos ⟨h, by simp⟩]
      simp only [Call.prepared, if_pos]
      rfl
    · rw [if_pos (by have := List.length_pos_iff.mpr hd; omega), packBytes_iff]
      by_cases h2 : ∀ v ∈ data, Fits8 v
      · rw [if_pos h2, except_bind_ok, if_pos ⟨h, h2⟩]
        simp only [Call.prepared, if_neg hd]
        rfl
      · rw [if_neg h2, except_bind_error, if_neg (fun hh => h2 hh.2)]
  · rw [if_neg (fun hh => h hh.2), except_bind_error, if_neg (fun hh => h hh.1)]

theorem fits16_of_bytes {n : Nat} (h : Fits8 (bytesFor n)) : Fits16 n := by
  unfold Spec.Fits8 bytesFor at h
  unfold Spec.Fits16
  omega

theorem prepare_writeCoils (s a : Int) (vs : List Int) :
    prepare (Call.args s (.writeCoils a vs)) =
      if Fits16 a ∧ Fits8 (bytesFor vs.length) then .ok (Call.prepared (.writeCoils a vs)) else .error .structError := by
  prep_branch
  dsimp only [Arg.num, Arg.len, Arg.items]
  rw [except_bind_ok, except_bind_ok, except_bind_ok, structPack_BHHB, nbBytes_eq]
  by_cases h : Fits16 a ∧ Fits8 (bytesFor vs.length)
  · rw [if_pos ⟨by decide, h.1, fits16_of_bytes h.2, h.2⟩, except_bind_ok, if_pos h]
    have := packCoilsLoop_eq vs [] (by simp) (toByte 15 :: (word (toWord a) ++ word (toWord vs.length) ++ [toByte (bytesFor vs.length)]))
    rw [show bitsSum 8 [] = 0 from rfl, List.nil_append, List.length_nil] at this
    rw [this, except_bind_ok]
    simp only [Call.prepared, Call.pdu, Spec.Req.encode, orFormat, orLength]
    rfl
  · rw [if_neg (fun hh => h ⟨hh.2.1, hh.2.2.2⟩), except_bind_error, if_neg h]

theorem customFormat_none (out : Arg) : customFormat out none = none := by
  unfold customFormat; split <;> rfl

theorem prepare_writeRegisters (s a : Int) (vs : List Int) :
    prepare (Call.args s (.writeRegisters a vs)) =
      if Fits16 a ∧ Fits8 (2 * vs.length) ∧ ∀ v ∈ vs, FitsReg v then .ok (Call.prepared (.writeRegisters a vs))
      else .error .structError := by
  prep_branch
  dsimp only [Arg.num, Arg.len, Arg.items]
  rw [customFormat_none]
  dsimp only
  rw [except_bind_ok]
  rw [show (pure (2 * (vs.length : Int)) : Except PyErr Int) = .ok (2 * (vs.length : Int)) from rfl, except_bind_ok,
    except_bind_ok, structPack_BHHB]
  rw [show 2 * (vs.length : Int) / 2 = vs.length by omega]
  by_cases h : Fits16 a ∧ Fits8 (2 * vs.length)
  · rw [if_pos ⟨by decide, h.1, by have := h.2; unfold Spec.Fits8 at this; unfold Spec.Fits16; omega, h.2⟩,
      except_bind_ok, except_bind_ok, packRegs_iff]
    by_cases h2 : ∀ v ∈ vs, FitsReg v
    · rw [if_pos h2, except_bind_ok, if_pos ⟨h.1, h.2, h2⟩]
      simp only [Call.prepared, Call.pdu, Spec.Req.encode, orLength]
      rfl
    · rw [if_neg h2, except_bind_error, if_neg (fun hh => h2 hh.2.2)]
  · rw [if_neg (fun hh => h ⟨hh.2.1, hh.2.2.2⟩), except_bind_error, if_neg (fun hh => h ⟨hh.1, hh.2.1⟩)]

theorem prepare_maskWrite (s a am om : Int) :
    prepare (Call.args s (.maskWrite a am om)) =
      if Fits16 a ∧ Fits16 am ∧ Fits16 om then .ok (Call.prepared (.maskWrite a am om))
      else if am < 0 ∨ om < 0 then .error .invalidRequest else .error .structError := by
  prep_branch
  dsimp only [Arg.num]
  by_cases h1 : am < 0
  · simp only [h1, reduceIte]
    rw [if_neg (fun hh => by have := hh.2.1.1; omega)]
    simp
  · simp only [h1, reduceIte]
    by_cases h2 : om < 0
    · simp only [h2, reduceIte]
      rw [if_neg (fun hh => by have := hh.2.2.1; omega)]
      simp
    · simp only [h2, reduceIte, or_self]
      rw [except_bind_ok, structPack_BHHH]
      by_cases h : Fits16 a ∧ Fits16 am ∧ Fits16 om
      · rw [if_pos ⟨by decide, h⟩, except_bind_ok, if_pos h]; rfl
      · rw [if_neg (fun hh => h hh.2), except_bind_error, if_neg h]

theorem prepare_readWrite (s ra rq wa : Int) (vs : List Int) :
    prepare (Call.args s (.readWrite ra rq wa vs)) =
      if Fits16 ra ∧ Fits16 rq ∧ Fits16 wa ∧ Fits8 (2 * vs.length) ∧ ∀ v ∈ vs, FitsReg v then
        .ok (Call.prepared (.readWrite ra rq wa vs))
      else .error .structError := by
  prep_branch
  dsimp only [Arg.num, Arg.len, Arg.items]
  rw [except_bind_ok, except_bind_ok, except_bind_ok, except_bind_ok, structPack_BHHHHB]
  by_cases h : Fits16 ra ∧ Fits16 rq ∧ Fits16 wa ∧ Fits8 (2 * vs.length)
  · rw [if_pos ⟨by decide, h.1, h.2.1, h.2.2.1,
        by have := h.2.2.2; unfold Spec.Fits8 at this; unfold Spec.Fits16; omega, h.2.2.2⟩,
      except_bind_ok, packRegs_iff]
    by_cases h2 : ∀ v ∈ vs, FitsReg v
    · rw [if_pos h2, except_bind_ok, if_pos ⟨h.1, h.2.1, h.2.2.1, h.2.2.2, h2⟩]
      simp only [Call.prepared, Call.pdu, Spec.Req.encode, orFormat, orLength]
      rfl
    · rw [if_neg h2, except_bind_error, if_neg (fun hh => h2 hh.2.2.2.2)]
  · rw [if_neg (fun hh => h ⟨hh.2.1, hh.2.2.1, hh.2.2.2.1, hh.2.2.2.2.2⟩), except_bind_error,
      if_neg (fun hh => h ⟨hh.1, hh.2.1, hh.2.2.1, hh.2.2.2.1⟩)]

theorem prepare_deviceInfo (s c o : Int) :
    prepare (Call.args s (.deviceInfo c o)) =
      if Fits8 c ∧ Fits8 o then .ok (Call.prepared (.deviceInfo c o)) else .error .structError := by
  prep_branch
  dsimp only [Arg.items]
  rw [except_bind_ok]
  dsimp only
  rw [structPack_BBBB]
  by_cases h : Fits8 c ∧ Fits8 o
  · rw [if_pos ⟨by decide, by decide, h⟩, except_bind_ok, if_pos h]; rfl
  · rw [if_neg (fun hh => h hh.2.2), except_bind_error, if_neg h]

theorem prepare_readFileRecord (s : Int) (rs : List Spec.FileReq) :
    prepare (Call.args s (.readFileRecord rs)) =
      if rs = [] then .error .invalidRequest
      else if Fits8 (7 * rs.length) ∧ ∀ r ∈ rs, Fits16 r.file ∧ Fits16 r.record ∧ Fits16 r.len then
        .ok (Call.prepared (.readFileRecord rs))
      else .error .structError := by
  prep_branch
  simp only [List.length_map]
  by_cases h0 : rs = []
  · subst h0; rfl
  · rw [if_pos ⟨trivial, trivial, List.length_pos_iff.mpr h0⟩, if_neg h0, structPack_BB, packRecords_iff]
    rw [show (rs.length : Int) * 7 = 7 * rs.length by omega]
    by_cases h : Fits8 (7 * rs.length)
    · rw [if_pos ⟨by decide, h⟩, except_bind_ok]
      by_cases h2 : ∀ r ∈ rs, Fits16 r.file ∧ Fits16 r.record ∧ Fits16 r.len
      · rw [if_pos h2, except_bind_ok, if_pos ⟨h, h2⟩]; rfl
      · rw [if_neg h2, except_bind_error, if_neg (fun hh => h2 hh.2)]
    · rw [if_neg (fun hh => h hh.2), except_bind_error, if_neg (fun hh => h hh.1)]

/-- `execute` prepares the pdu of the Modbus specification exactly for arguments that fit -/
theorem prepare_call {c : Call} (s : Int) (h : c.Fits) : prepare (c.args s) = .ok c.prepared := by
  cases c with
  | readCoils a q => simp only [Call.Fits] at h; rw [Call.args, prepare_readBits 1 (by decide), if_pos h]; rfl
  | readDiscrete a q => simp only [Call.Fits] at h; rw [Call.args, prepare_readBits 2 (by decide), if_pos h]; rfl
  | readHolding a q => simp only [Call.Fits] at h; rw [Call.args, prepare_readRegs 3 (by decide), if_pos h]; rfl
  | readInput a q => simp only [Call.Fits] at h; rw [Call.args, prepare_readRegs 4 (by decide), if_pos h]; rfl
  | writeCoil a v => simp only [Call.Fits] at h; rw [prepare_writeCoil, if_pos h]
  | writeRegister a v => simp only [Call.Fits] at h; rw [prepare_writeRegister, if_pos h]
  | readExceptionStatus => exact prepare_readExceptionStatus s
  | diagnostic sub data => simp only [Call.Fits] at h; rw [prepare_diagnostic, if_pos h]
  | writeCoils a vs => simp only [Call.Fits] at h; rw [prepare_writeCoils, if_pos h]
  | writeRegisters a vs => simp only [Call.Fits] at h; rw [prepare_writeRegisters, if_pos h]
  | readFileRecord rs => simp only [Call.Fits] at h; rw [prepare_readFileRecord, if_neg h.1, if_pos h.2]
  | maskWrite a am om => simp only [Call.Fits] at h; rw [prepare_maskWrite, if_pos h]
  | readWrite ra rq wa vs => simp only [Call.Fits] at h; rw [prepare_readWrite, if_pos h]
  | deviceInfo c o => simp only [Call.Fits] at h; rw [prepare_deviceInfo, if_pos h]

theorem prepare_call_error {c : Call} (s : Int) (h : ¬ c.Fits) :
    prepare (c.args s) = .error .structError ∨ prepare (c.args s) = .error .invalidRequest := by
  cases c with
  | readCoils a q => left; simp only [Call.Fits] at h; rw [Call.args, prepare_readBits 1 (by decide), if_neg h]
  | readDiscrete a q => left; simp only [Call.Fits] at h; rw [Call.args, prepare_readBits 2 (by decide), if_neg h]
  | readHolding a q => left; simp only [Call.Fits] at h; rw [Call.args, prepare_readRegs 3 (by decide), if_neg h]
  | readInput a q => left; simp only [Call.Fits] at h; rw [Call.args, prepare_readRegs 4 (by decide), if_neg h]
  | writeCoil a v => left; simp only [Call.Fits] at h; rw [prepare_writeCoil, if_neg h]
  | writeRegister a v => left; simp only [Call.Fits] at h; rw [prepare_writeRegister, if_neg h]
  | readExceptionStatus => exact absurd trivial h
  | diagnostic sub data => left; simp only [Call.Fits] at h; rw [prepare_diagnostic, if_neg h]
  | writeCoils a vs => left; simp only [Call.Fits] at h; rw [prepare_writeCoils, if_neg h]
  | writeRegisters a vs => left; simp only [Call.Fits] at h; rw [prepare_writeRegisters, if_neg h]
  | readFileRecord rs =>
    simp only [Call.Fits] at h
    rw [prepare_readFileRecord]
    by_cases h0 : rs = []
    · right; rw [if_pos h0]
    · left; rw [if_neg h0, if_neg (fun hh => h ⟨h0, hh⟩)]
  | maskWrite a am om =>
    simp only [Call.Fits] at h
    rw [prepare_maskWrite, if_neg h]
    by_cases h2 : am < 0 ∨ om < 0
    · right; rw [if_pos h2]
    · left; rw [if_neg h2]
  | readWrite ra rq wa vs => left; simp only [Call.Fits] at h; rw [prepare_readWrite, if_neg h]
  | deviceInfo c o => left; simp only [Call.Fits] at h; rw [prepare_deviceInfo, if_neg h]

end Modbus
