import Verif.Lemmas.Accept5
import Verif.Lemmas.Total

/-!
# Readers and the forms they take: actions
-/

namespace Dash7

open Op

theorem OpCode.fits : Fits OpCode.read (fun o => Form.field 6 o.code.toNat) :=
  Fits.map (Fits.uint (show 6 ≤ 8 by decide)) fun b c => by cases b; simp

theorem StatusCode.fits : Fits StatusCode.read (fun o => Form.field 8 o.code.toNat) :=
  Fits.map Fits.u8 fun b c => by cases b; simp

theorem ActionHeader.fits : Fits ActionHeader.read Form.header := by
  unfold ActionHeader.read Form.header
  refine Fits.start ?_
  fld Fits.flag
  fld Fits.flag
  fin

theorem ResponseTagHeader.fits :
    Fits ResponseTagHeader.read (fun h => Form.all [Form.flag h.endOfPacket, Form.flag h.error]) := by
  unfold ResponseTagHeader.read
  refine Fits.start ?_
  fld Fits.flag
  fld Fits.flag
  fin

theorem IndirectForwardHeader.fits :
    Fits IndirectForwardHeader.read (fun h => Form.all [Form.flag h.overloaded, Form.flag h.response]) := by
  unfold IndirectForwardHeader.read
  refine Fits.start ?_
  fld Fits.flag
  fld Fits.flag
  fin

theorem ForwardHeader.fits : Fits ForwardHeader.read (fun h => Form.all [Form.reserved 1, Form.flag h.response]) := by
  unfold ForwardHeader.read
  refine Fits.start ?_
  skp 1
  fld Fits.flag
  fin

theorem RequestTagHeader.fits :
    Fits RequestTagHeader.read (fun h => Form.all [Form.flag h.endOfPacket, Form.reserved 1]) := by
  unfold RequestTagHeader.read
  refine Fits.start ?_
  fld Fits.flag
  skp 1
  fin

theorem TxStatusType.fits : Fits TxStatusType.read (fun _ => Form.field 2 1) := by tbl

theorem PermissionLevel.fits :
    Fits PermissionLevel.read (fun e => Form.field 8 (Wire.permissionLevel e).toNat) := by tbl

theorem StatusType.fits : Fits StatusType.read (fun e => Form.field 2 (Wire.statusType e)) := by tbl

theorem ChunkStep.fits : Fits ChunkStep.read (fun e => Form.field 2 (Wire.chunkStep e)) := by tbl

theorem LogicOp.fits : Fits LogicOp.read (fun e => Form.field 2 (Wire.logicOp e)) := by tbl

theorem ActionStatus.fits : Fits ActionStatus.read
    (fun s => Form.all [Form.field 8 s.actionId.toNat, Form.field 8 s.status.code.toNat]) := by
  unfold ActionStatus.read
  refine Fits.start ?_
  fld Fits.u8
  fld StatusCode.fits
  fin

theorem Permission.fits : Fits Permission.read Form.permission := by
  unfold Permission.read
  refine Fits.byId (Nat.le_refl 8)
    (K := fun i b c => i.toNat = 0x42 ∧ match b with | .dash7 b => Form.bytes b.toList c)
    (fun i _ => ?_) (fun b c => ?_)
  · split
    · rename_i h
      subst h
      refine Fits.map (Fits.bytes5 8) fun b c => ?_
      cases b; simp
    · rename_i h
      refine Fits.fail fun b c => ?_
      rintro ⟨hi, -⟩
      exact h (BitVec.eq_of_toNat_eq hi)
  · cases b with
    | dash7 b =>
      simp only [Form.id_iff (Nat.le_refl 8) (show 0x42 < 2 ^ 8 by decide), Form.permission,
        Form.all.eq_2 (Form.field _ _), Form.all_one]

/-! ## Operands -/

theorem Op.Nop.fits : Fits Op.Nop.read
    (fun o => Form.all [Form.header o.header, Form.field 6 o.opcode.code.toNat]) := by
  unfold Op.Nop.read
  refine Fits.start ?_
  fld ActionHeader.fits
  fld OpCode.fits
  fin

theorem Op.Extension.fits : Fits Op.Extension.read
    (fun o => Form.all [Form.header o.header, Form.field 6 o.opcode.code.toNat]) := by
  unfold Op.Extension.read
  refine Fits.start ?_
  fld ActionHeader.fits
  fld OpCode.fits
  fin

theorem Op.FileId.fits : Fits Op.FileId.read
    (fun o => Form.all [Form.header o.header, Form.field 6 o.opcode.code.toNat, Form.field 8 o.fileId.toNat]) := by
  unfold Op.FileId.read
  refine Fits.start ?_
  fld ActionHeader.fits
  fld OpCode.fits
  fld Fits.u8
  fin

theorem Op.FileProperties.fits : Fits Op.FileProperties.read
    (fun o => Form.all [Form.header o.header, Form.field 6 o.opcode.code.toNat, Form.field 8 o.fileId.toNat, Form.fileHeader o.fileHeader]) := by
  unfold Op.FileProperties.read
  refine Fits.start ?_
  fld ActionHeader.fits
  fld OpCode.fits
  fld Fits.u8
  fld Data.FileHeader.fits
  fin

theorem Op.ReadFileData.fits : Fits Op.ReadFileData.read
    (fun o => Form.all [Form.header o.header, Form.field 6 o.opcode.code.toNat, Form.fileOffset o.offset, Form.length o.length.val.toNat]) := by
  unfold Op.ReadFileData.read
  refine Fits.start ?_
  fld ActionHeader.fits
  fld OpCode.fits
  fld FileOffset.fits
  fld Length.fits
  fin

theorem Op.ActionQuery.fits : Fits Op.ActionQuery.read
    (fun o => Form.all [Form.header o.header, Form.field 6 o.opcode.code.toNat, Form.query o.query]) := by
  unfold Op.ActionQuery.read
  refine Fits.start ?_
  fld ActionHeader.fits
  fld OpCode.fits
  fld Query.fits
  fin

theorem Op.PermissionRequest.fits : Fits Op.PermissionRequest.read
    (fun o => Form.all [Form.header o.header, Form.field 6 o.opcode.code.toNat, Form.field 8 (Wire.permissionLevel o.level).toNat,
      Form.permission o.permission]) := by
  unfold Op.PermissionRequest.read
  refine Fits.start ?_
  fld ActionHeader.fits
  fld OpCode.fits
  fld PermissionLevel.fits
  fld Permission.fits
  fin

theorem Op.CopyFile.fits : Fits Op.CopyFile.read
    (fun o => Form.all [Form.header o.header, Form.field 6 o.opcode.code.toNat, Form.field 8 o.srcFileId.toNat, Form.field 8 o.dstFileId.toNat]) := by
  unfold Op.CopyFile.read
  refine Fits.start ?_
  fld ActionHeader.fits
  fld OpCode.fits
  fld Fits.u8
  fld Fits.u8
  fin

theorem Op.ResponseTag.fits : Fits Op.ResponseTag.read
    (fun o => Form.all [Form.all [Form.flag o.header.endOfPacket, Form.flag o.header.error],
      Form.field 6 o.opcode.code.toNat, Form.field 8 o.id.toNat]) := by
  unfold Op.ResponseTag.read
  refine Fits.start ?_
  fld ResponseTagHeader.fits
  fld OpCode.fits
  fld Fits.u8
  fin

theorem Op.Chunk.fits : Fits Op.Chunk.read
    (fun o => Form.all [Form.field 2 (Wire.chunkStep o.step), Form.field 6 o.opcode.code.toNat]) := by
  unfold Op.Chunk.read
  refine Fits.start ?_
  fld ChunkStep.fits
  fld OpCode.fits
  fin

theorem Op.Logic.fits : Fits Op.Logic.read
    (fun o => Form.all [Form.field 2 (Wire.logicOp o.logic), Form.field 6 o.opcode.code.toNat]) := by
  unfold Op.Logic.read
  refine Fits.start ?_
  fld LogicOp.fits
  fld OpCode.fits
  fin

theorem Op.Forward.fits (cfg : Cfg) : Fits (Op.Forward.read cfg)
    (fun o => Form.all [Form.reserved 1, Form.flag o.response, Form.field 6 o.opcode.code.toNat,
      Form.interfaceConfiguration cfg.variant cfg.bigEndianHost o.configuration]) := by
  unfold Op.Forward.read
  refine Fits.start ?_
  skp 1
  fld Fits.flag
  fld OpCode.fits
  fld (InterfaceConfiguration.fits cfg)
  fin

theorem Op.RequestTag.fits : Fits Op.RequestTag.read
    (fun o => Form.all [Form.flag o.endOfPacket, Form.reserved 1, Form.field 6 o.opcode.code.toNat,
      Form.field 8 o.id.toNat]) := by
  unfold Op.RequestTag.read
  refine Fits.start ?_
  fld Fits.flag
  skp 1
  fld OpCode.fits
  fld Fits.u8
  fin


theorem Op.FileData.readData_fits (cfg : Cfg) (off : FileOffset) : Fits (Op.FileData.readData cfg off)
    (fun d c => ∃ n, Form.all [Form.length n, Form.file cfg.bigEndianHost off.fileId.toNat n d] c) := by
  unfold Op.FileData.readData
  intro d c s'
  simp only [P.bind_eq, Length.fits.bind_iff]
  constructor
  · rintro ⟨l, x, y, rfl, hx, hy⟩
    exact ⟨_, x, y, rfl, hx, (Form.all_one _ _).2 ((File.fits cfg off.fileId l.val d y s').1 hy)⟩
  · rintro ⟨n, x, y, rfl, hx, hy⟩
    rw [Form.all_one] at hy
    obtain ⟨l, rfl⟩ := Form.length_ex hx
    exact ⟨l, x, y, rfl, hx, (File.fits cfg off.fileId l.val d y s').2 hy⟩

theorem Op.FileData.fits (cfg : Cfg) : Fits (Op.FileData.read cfg)
    (fun o => Form.all [Form.header o.header, Form.field 6 o.opcode.code.toNat, Form.fileOffset o.offset,
      fun c => ∃ n, Form.all [Form.length n, Form.file cfg.bigEndianHost o.offset.fileId.toNat n o.data] c]) := by
  unfold Op.FileData.read
  refine Fits.start ?_
  fld ActionHeader.fits
  fld OpCode.fits
  apply Fits.cons FileOffset.fits
  intro off
  refine Fits.dep (fun b => b.data) (Op.FileData.readData_fits cfg off) ?_ ?_
  · rintro b ⟨-, rfl⟩ c; rfl
  intro _
  fin


theorem Status.fits (cfg : Cfg) (t : StatusType) :
    Fits (Status.read cfg t) (Form.status cfg.variant cfg.unitPatConsumes t) := by
  cases t with
  | action =>
    refine Fits.map ActionStatus.fits fun b c => ?_
    cases b <;> simp [Form.status, Form.given]
  | interface =>
    refine Fits.map (InterfaceStatusOperation.fits cfg) fun b c => ?_
    cases b <;> simp [Form.status, Form.given]
  | interfaceFinal =>
    unfold Status.read
    cases hv : cfg.variant <;> dsimp only
    case wizzilab =>
      refine Fits.map InterfaceFinalStatusOperation.fits fun b c => ?_
      cases b <;> simp [Form.status, Form.given]
    all_goals
      refine Fits.fail fun b c => ?_
      cases b <;> simp [Form.status, Form.given]

theorem Op.StatusOperand.fits (cfg : Cfg) : Fits (Op.StatusOperand.read cfg)
    (fun o => Form.all [Form.field 2 (Wire.statusType o.statusType), Form.field 6 o.opcode.code.toNat,
      Form.status cfg.variant cfg.unitPatConsumes o.statusType o.status]) := by
  unfold Op.StatusOperand.read
  refine Fits.start ?_
  apply Fits.cons StatusType.fits
  intro t
  fld OpCode.fits
  refine Fits.dep (fun b => b.status) (Status.fits cfg t) ?_ ?_
  · rintro b ⟨⟨-, rfl⟩, -⟩ c; rfl
  intro _
  fin

theorem Op.IndirectForward.fits (cfg : Cfg) : Fits (Op.IndirectForward.read cfg)
    (fun o => Form.all [Form.all [Form.flag o.header.overloaded, Form.flag o.header.response],
      Form.field 6 o.opcode.code.toNat,
      Form.indirectConfiguration cfg.variant o.header.overloaded o.configuration]) := by
  unfold Op.IndirectForward.read
  refine Fits.start ?_
  apply Fits.cons IndirectForwardHeader.fits
  intro h
  fld OpCode.fits
  refine Fits.dep (fun b => b.configuration)
    (Fits.cond (F := Form.indirectConfiguration cfg.variant h.overloaded) h.overloaded
      (IndirectInterface.fits cfg) ?_ ?_) ?_ ?_
  · intro hh
    rw [hh]
    exact ⟨fun _ _ => Iff.rfl, fun c => by simp [Form.indirectConfiguration, Form.given]⟩
  · intro hh
    rw [hh]
    exact ⟨fun _ _ => by simp [Form.indirectConfiguration, Form.given], fun c => Iff.rfl⟩
  · rintro b ⟨⟨-, rfl⟩, -⟩ c; rfl
  intro _
  fin

theorem txStatusType_fits : Fits (P.enum 2 txStatusTypeOfId) (fun _ => Form.field 2 1) := by
  exact Fits.enum (by decide) (fun e => by cases e; exact U8.forall (by decide +kernel))

theorem Op.TxStatusOperation.fits (cfg : Cfg) : Fits (Op.TxStatusOperation.read cfg)
    (fun o => Form.all [Form.field 2 1, Form.reserved 6, Form.field 6 o.opcode.code.toNat,
      Form.interfaceTxStatus cfg.variant cfg.bigEndianHost o.status]) := by
  unfold Op.TxStatusOperation.read
  refine Fits.start ?_
  refine Fits.skip txStatusType_fits () (fun _ => rfl) ?_
  skp 6
  fld OpCode.fits
  fld (InterfaceTxStatusOperation.fits cfg)
  fin

/-! ## Actions -/

open Form (operand)

namespace Action

theorem dispatch_fits (cfg : Cfg) (code : OpCode) : Fits (dispatch cfg code)
    (fun a c => Spec.opcodeOf a = code.code.toNat ∧ operand cfg a c) := by
  unfold dispatch
  split
  · rename_i h
    refine Fits.map Op.Nop.fits fun a c => ?_
    cases a <;> simp [Spec.opcodeOf, h, operand]
  · rename_i h
    refine Fits.map Op.ReadFileData.fits fun a c => ?_
    cases a <;> simp [Spec.opcodeOf, h, operand]
  · rename_i h
    refine Fits.map Op.FileId.fits fun a c => ?_
    cases a <;> simp [Spec.opcodeOf, h, operand]
  · rename_i h
    refine Fits.map (Op.FileData.fits cfg) fun a c => ?_
    cases a <;> simp [Spec.opcodeOf, h, operand]
  · rename_i h
    refine Fits.map (Op.FileData.fits cfg) fun a c => ?_
    cases a <;> simp [Spec.opcodeOf, h, operand]
  · rename_i h
    refine Fits.map Op.FileProperties.fits fun a c => ?_
    cases a <;> simp [Spec.opcodeOf, h, operand]
  · rename_i h
    refine Fits.map Op.ActionQuery.fits fun a c => ?_
    cases a <;> simp [Spec.opcodeOf, h, operand]
  · rename_i h
    refine Fits.map Op.ActionQuery.fits fun a c => ?_
    cases a <;> simp [Spec.opcodeOf, h, operand]
  · rename_i h
    refine Fits.map Op.PermissionRequest.fits fun a c => ?_
    cases a <;> simp [Spec.opcodeOf, h, operand]
  · rename_i h
    refine Fits.map Op.ActionQuery.fits fun a c => ?_
    cases a <;> simp [Spec.opcodeOf, h, operand]
  · rename_i h
    refine Fits.map Op.FileId.fits fun a c => ?_
    cases a <;> simp [Spec.opcodeOf, h, operand]
  · rename_i h
    refine Fits.map Op.FileProperties.fits fun a c => ?_
    cases a <;> simp [Spec.opcodeOf, h, operand]
  · rename_i h
    refine Fits.map Op.FileId.fits fun a c => ?_
    cases a <;> simp [Spec.opcodeOf, h, operand]
  · rename_i h
    refine Fits.map Op.FileId.fits fun a c => ?_
    cases a <;> simp [Spec.opcodeOf, h, operand]
  · rename_i h
    refine Fits.map Op.FileId.fits fun a c => ?_
    cases a <;> simp [Spec.opcodeOf, h, operand]
  · rename_i h
    refine Fits.map Op.CopyFile.fits fun a c => ?_
    cases a <;> simp [Spec.opcodeOf, h, operand]
  · rename_i h
    refine Fits.map Op.FileId.fits fun a c => ?_
    cases a <;> simp [Spec.opcodeOf, h, operand]
  · rename_i h
    refine Fits.map (Op.FileData.fits cfg) fun a c => ?_
    cases a <;> simp [Spec.opcodeOf, h, operand]
  · rename_i h
    refine Fits.map Op.FileProperties.fits fun a c => ?_
    cases a <;> simp [Spec.opcodeOf, h, operand]
  · rename_i h
    refine Fits.map (Op.StatusOperand.fits cfg) fun a c => ?_
    cases a <;> simp [Spec.opcodeOf, h, operand]
  · rename_i h
    refine Fits.map Op.ResponseTag.fits fun a c => ?_
    cases a <;> simp [Spec.opcodeOf, h, operand]
  · rename_i h
    cases hv : cfg.variant <;> dsimp only
    case wizzilab =>
      refine Fits.map (Op.TxStatusOperation.fits cfg) fun a c => ?_
      cases a <;> simp [Spec.opcodeOf, h, operand, hv]
    all_goals
      refine Fits.fail fun a c => ?_
      cases a <;> simp [Spec.opcodeOf, h, operand, hv, Form.given]
  · rename_i h
    refine Fits.map Op.Chunk.fits fun a c => ?_
    cases a <;> simp [Spec.opcodeOf, h, operand]
  · rename_i h
    refine Fits.map Op.Logic.fits fun a c => ?_
    cases a <;> simp [Spec.opcodeOf, h, operand]
  · rename_i h
    refine Fits.map (Op.Forward.fits cfg) fun a c => ?_
    cases a <;> simp [Spec.opcodeOf, h, operand]
  · rename_i h
    refine Fits.map (Op.IndirectForward.fits cfg) fun a c => ?_
    cases a <;> simp [Spec.opcodeOf, h, operand]
  · rename_i h
    refine Fits.map Op.RequestTag.fits fun a c => ?_
    cases a <;> simp [Spec.opcodeOf, h, operand]
  · rename_i h
    refine Fits.map Op.Extension.fits fun a c => ?_
    cases a <;> simp [Spec.opcodeOf, h, operand]
  · rename_i h0 h1 h2 h4 h5 h6 h8 h9 h10 h11 h16 h17 h18 h19 h20 h23 h31 h32 h33 h34 h35 h38 h48 h49 h50 h51 h52 h63
    refine Fits.fail fun a c => ?_
    rintro ⟨h, -⟩
    cases a <;> simp only [Spec.opcodeOf] at h <;> exact absurd h.symm (by assumption)

/-! ## Forms and operands -/

theorem opcode1 {f : Form} {o : OpCode} {n : Nat} {fs : List Form} {c : List Bool} :
    Form.all (f :: Form.opcode o n :: fs) c ↔
      o.code.toNat = n ∧ Form.all (f :: Form.field 6 o.code.toNat :: fs) c := by
  constructor
  · rintro ⟨x, _, rfl, hx, y, z, rfl, ⟨rfl, hy⟩, hz⟩
    exact ⟨rfl, x, _, rfl, hx, y, z, rfl, hy, hz⟩
  · rintro ⟨rfl, x, _, rfl, hx, y, z, rfl, hy, hz⟩
    exact ⟨x, _, rfl, hx, y, z, rfl, ⟨rfl, hy⟩, hz⟩

theorem opcode2 {f g : Form} {o : OpCode} {n : Nat} {fs : List Form} {c : List Bool} :
    Form.all (f :: g :: Form.opcode o n :: fs) c ↔
      o.code.toNat = n ∧ Form.all (f :: g :: Form.field 6 o.code.toNat :: fs) c := by
  constructor
  · rintro ⟨x, _, rfl, hx, h⟩
    obtain ⟨hn, h'⟩ := opcode1.1 h
    exact ⟨hn, x, _, rfl, hx, h'⟩
  · rintro ⟨rfl, x, _, rfl, hx, h⟩
    exact ⟨x, _, rfl, hx, opcode1.2 ⟨rfl, h⟩⟩

theorem form_operand {cfg : Cfg} {a : Action} {c : List Bool} (h : a.isTx = false) :
    Form.action cfg a c ↔ a.opcodeField.code.toNat = Spec.opcodeOf a ∧ operand cfg a c := by
  cases a with
  | txStatus o => cases h
  | forward o => exact opcode2
  | requestTag o => exact opcode2
  | _ => exact opcode1

theorem opAt_bits {c s' : List Bool} (h : 8 ≤ c.length) :
    (opAt 2 (c ++ s')).code.toNat = bitsNat ((c.drop 2).take 6) := by
  unfold opAt
  rw [List.drop_append_of_le_length (by omega), List.take_append_of_le_length (by simp; omega)]
  dsimp only
  rw [BitVec.toNat_ofNat, Nat.mod_eq_of_lt]
  have := bitsNat_lt ((c.drop 2).take 6)
  have hl : ((c.drop 2).take 6).length = 6 := by simp; omega
  rw [hl] at this
  omega

theorem form_tx {cfg : Cfg} {o : Op.TxStatusOperation} {c : List Bool} :
    Form.action cfg (.txStatus o) c ↔
      operand cfg (.txStatus o) c ∧ bitsNat ((c.drop 2).take 6) = 38 := by
  have key : ∀ {x y z : List Bool}, x.length = 2 → y.length = 6 →
      ((x ++ (y ++ z)).drop 2).take 6 = y := by
    intro x y z hx hy
    rw [List.drop_left' hx, List.take_left' hy]
  unfold Form.action operand
  by_cases hv : cfg.variant = .wizzilab
  · simp only [hv, if_true]
    constructor
    · rintro ⟨x, _, rfl, hx, y, z, rfl, hy, hz⟩
      refine ⟨⟨x, _, rfl, hx, y, z, rfl, hy.1, hz⟩, ?_⟩
      rw [key hx.1 hy.1, ← Form.value_eq, hy.2]
    · rintro ⟨⟨x, _, rfl, hx, y, z, rfl, hy, hz⟩, h⟩
      rw [key hx.1 hy, ← Form.value_eq] at h
      exact ⟨x, _, rfl, hx, y, z, rfl, ⟨hy, h⟩, hz⟩
  · simp only [hv, if_false, Form.given, Form.all]
    simp

/-- Decoding an action is reading one of its forms. -/
theorem decode_iff (cfg : Cfg) (a : Action) (c s' : List Bool) :
    decode cfg (c ++ s') = .ok (a, s') ↔ Form.action cfg a c := by
  have fits := fun code => dispatch_fits cfg code a c s'
  have len : operand cfg a c → 8 ≤ c.length := fun h =>
    (dispatch_post cfg a.opcode c s' a ((fits a.opcode).2 ⟨(opcode_toNat a).symm, h⟩)).2.pos
  constructor
  · intro h
    obtain ⟨c', hc, -, hop, hf, he, -⟩ := decode_ok h
    obtain ⟨-, ho⟩ := (fits _).1 he
    cases ht : a.isTx with
    | false => exact (form_operand ht).2 ⟨by rw [hf ht, hop], ho⟩
    | true =>
      cases a with
      | txStatus o =>
        refine form_tx.2 ⟨ho, ?_⟩
        rw [← opAt_bits (len ho), ← hop]
        rfl
      | _ => cases ht
  · intro h
    cases ht : a.isTx with
    | false =>
      obtain ⟨h1, ho⟩ := (form_operand ht).1 h
      have he := (fits a.opcode).2 ⟨(opcode_toNat a).symm, ho⟩
      have hop := dispatch_opAt cfg _ he ht
      have hop' : opAt 2 (c ++ s') = a.opcode := by
        rw [← hop]
        have : a.opcodeField.code = a.opcode.code :=
          BitVec.eq_of_toNat_eq (by rw [h1, opcode_toNat])
        cases hx : a.opcodeField; cases hy : a.opcode
        rw [hx, hy] at this
        cases this; rfl
      have := len ho
      rw [decode, if_pos (by simp; omega), hop']
      exact he
    | true =>
      cases a with
      | txStatus o =>
        obtain ⟨ho, h38⟩ := form_tx.1 h
        have := len ho
        have he := (fits (opAt 2 (c ++ s'))).2 ⟨by rw [opAt_bits this, h38]; rfl, ho⟩
        rw [decode, if_pos (by simp; omega)]
        exact he
      | _ => cases ht

end Action

end Dash7
