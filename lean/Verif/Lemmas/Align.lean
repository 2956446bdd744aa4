import Verif.Lemmas.Core
import Verif.Spec.WF

/-!
# How many bits the writers put out, modulo 8

For every value, well-formed or not.
-/

namespace Dash7

/-- If the writer succeeds, the number of its bits is `k` modulo 8. -/
def Mod8 (w : W) (k : Nat) : Prop := ∀ bs, w = .ok bs → bs.length % 8 = k % 8

namespace Mod8

theorem nil : Mod8 (W.seq []) 0 := by rintro bs h; cases h; rfl
theorem nil' : Mod8 (.ok []) 0 := by rintro bs h; cases h; rfl
theorem error {e : Err} {k : Nat} : Mod8 (.error e) k := by rintro bs h; cases h

theorem cons {w : W} {ws : List W} {n m : Nat} (h1 : Mod8 w n) (h2 : Mod8 (W.seq ws) m) :
    Mod8 (W.seq (w :: ws)) (n + m) := by
  rintro bs h
  cases w with
  | error e => simp [W.seq] at h
  | ok x =>
    cases hy : W.seq ws with
    | error e => simp [W.seq, hy] at h
    | ok y =>
      simp only [W.seq, hy, Except.ok.injEq] at h
      subst h
      have a := h1 x rfl
      have b := h2 y hy
      rw [List.length_append]
      omega

theorem mono {w : W} {n m : Nat} (h : Mod8 w n) (hnm : n % 8 = m % 8) : Mod8 w m := by
  rintro bs hb
  rw [h bs hb, hnm]

theorem uint {w n : Nat} {v : BitVec w} : Mod8 (W.uint n v) n := by
  rintro bs h
  unfold W.uint at h
  split at h
  · cases h
  · cases h; simp

theorem u8 {v : U8} : Mod8 (W.u8 v) 0 := uint.mono rfl
theorem flag {b : Bool} : Mod8 (W.flag b) 1 := by rintro bs h; cases h; rfl
theorem pad {n : Nat} : Mod8 (W.pad n) n := by rintro bs h; cases h; simp
theorem uintLE {k : Nat} {v : BitVec (8 * k)} : Mod8 (W.uintLE k v) 0 := by
  rintro bs h; cases h; simp
theorem uintHost {cfg : Cfg} {k : Nat} {v : BitVec (8 * k)} : Mod8 (W.uintHost cfg k v) 0 := by
  unfold W.uintHost
  split
  · exact uint.mono (by omega)
  · exact uintLE

theorem list {α : Type} {w : α → W} (h : ∀ a, Mod8 (w a) 0) (l : List α) : Mod8 (W.list w l) 0 := by
  unfold W.list
  induction l with
  | nil => exact nil
  | cons a l ih => exact (cons (h a) ih).mono rfl

theorem bytes {l : List U8} : Mod8 (W.list W.u8 l) 0 := list (fun _ => u8) l

theorem opt {α : Type} {w : α → W} (h : ∀ a, Mod8 (w a) 0) (o : Option α) : Mod8 (W.opt w o) 0 := by
  cases o with
  | none => exact nil'
  | some a => exact h a

theorem single {w : W} {k : Nat} (h : Mod8 w k) : Mod8 (W.seq [w]) k := (cons h nil).mono (by omega)

end Mod8

/-- Fields one after the other; leaves come from the given lemmas. -/
macro "mod8" "[" ls:term,* "]" : tactic => do
  let alts ← ls.getElems.mapM fun t => `(tactic| with_reducible exact $t)
  let base ← #[``Mod8.nil, ``Mod8.uint, ``Mod8.u8, ``Mod8.flag, ``Mod8.pad, ``Mod8.uintHost, ``Mod8.bytes,
    ``Mod8.nil'].mapM
    fun n => `(tactic| with_reducible exact $(Lean.mkIdent n))
  let all := alts ++ base
  `(tactic| (apply Mod8.mono
             · repeat' (first $[| $all:tactic]* | with_reducible apply Mod8.cons)
             · rfl))

theorem VarInt.mod8 (v : VarInt) : Mod8 v.write 0 := by
  unfold VarInt.write
  split
  · mod8 []
  · exact Mod8.error

theorem Length.mod8 (l : Length) : Mod8 l.write 0 := by
  unfold Length.write
  exact (Mod8.cons Mod8.uint (Mod8.cons Mod8.uint Mod8.nil)).mono (by omega)

theorem FileOffset.mod8 (f : FileOffset) : Mod8 f.write 0 := by
  unfold FileOffset.write; mod8 [Length.mod8 _]

theorem writeLengthPrefixed_mod8 (w : W) : Mod8 (writeLengthPrefixed w) 0 := by
  unfold writeLengthPrefixed
  split
  · exact Mod8.error
  · mod8 [Length.mod8 _]

theorem ChannelHeader.mod8 (h : ChannelHeader) : Mod8 h.write 0 := by
  unfold ChannelHeader.write ChannelBand.write ChannelClass.write ChannelCoding.write; mod8 []
theorem Channel.mod8 (h : Channel) : Mod8 h.write 0 := by
  unfold Channel.write; mod8 [ChannelHeader.mod8 _]
theorem ChannelStatusIdentifier.mod8 (h : ChannelStatusIdentifier) : Mod8 h.write 0 := by
  unfold ChannelStatusIdentifier.write ChannelBand.write Bandwidth.write; mod8 []
theorem SubBand.mod8 (h : SubBand) : Mod8 h.write 0 := by unfold SubBand.write; mod8 []
theorem ChannelStatus.mod8 (h : ChannelStatus) : Mod8 h.write 0 := by
  unfold ChannelStatus.write; mod8 [ChannelStatusIdentifier.mod8 _]

theorem SubProfile.mod8 (h : SubProfile) : Mod8 h.write 0 := by
  unfold SubProfile.write; mod8 [VarInt.mod8 _]
theorem AccessClass.mod8 (h : AccessClass) : Mod8 h.write 0 := by unfold AccessClass.write; mod8 []
theorem AccessProfile.mod8 (h : AccessProfile) : Mod8 h.write 0 := by
  unfold AccessProfile.write
  mod8 [ChannelHeader.mod8 _, Mod8.list SubProfile.mod8 _, Mod8.list SubBand.mod8 _]
theorem NlsState.mod8 (h : NlsState) : Mod8 h.write 0 := by
  cases h <;> unfold NlsState.write <;> mod8 []
theorem Address.mod8 (h : Address) : Mod8 h.write 0 := by
  cases h <;> unfold Address.write <;> mod8 [VarInt.mod8 _]
theorem Addressee.mod8 (cfg : Cfg) (h : Addressee) : Mod8 (h.write cfg) 0 := by
  have : Mod8 (h.writeCtl cfg) 0 := by
    unfold Addressee.writeCtl GroupCondition.write AddressType.write NlsMethod.write NlsMethod.width
    cases cfg.variant <;> dsimp only <;> mod8 []
  unfold Addressee.write
  mod8 [this, AccessClass.mod8 _, Address.mod8 _, NlsState.mod8 _]

theorem Data.FileHeader.mod8 (h : Data.FileHeader) : Mod8 h.write 0 := by
  have h1 : Mod8 h.permissions.write 0 := by
    unfold FilePermissions.write UserPermissions.writer; mod8 []
  have h2 : Mod8 h.properties.write 0 := by
    unfold FileProperties.write ActionCondition.writer StorageClass.write; mod8 []
  unfold Data.FileHeader.write; mod8 [h1, h2]

theorem InterfaceType.mod8 (h : InterfaceType) : Mod8 h.write 0 := by
  unfold InterfaceType.write; split <;> mod8 []
theorem QoS.mod8 (h : QoS) : Mod8 h.write 0 := by
  unfold QoS.write RetryMode.write ResponseMode.write; mod8 []
theorem Dash7InterfaceStatus.mod8 (cfg : Cfg) (h : Dash7InterfaceStatus) : Mod8 (h.write cfg) 0 := by
  unfold Dash7InterfaceStatus.write; mod8 [Channel.mod8 _, VarInt.mod8 _, Addressee.mod8 _ _]
theorem InterfaceStatus.mod8 (cfg : Cfg) (h : InterfaceStatus) : Mod8 (h.write cfg) 0 := by
  cases h <;> unfold InterfaceStatus.write <;> mod8 [Dash7InterfaceStatus.mod8 _ _]
theorem InterfaceFinalStatus.mod8 (h : InterfaceFinalStatus) : Mod8 h.write 0 := by
  cases h <;> unfold InterfaceFinalStatus.write <;> try unfold InterfaceFinalStatusCode.write
  all_goals mod8 []
theorem Dash7InterfaceTxStatus.mod8 (cfg : Cfg) (h : Dash7InterfaceTxStatus) :
    Mod8 (h.write cfg) 0 := by
  unfold Dash7InterfaceTxStatus.write InterfaceFinalStatusCode.write
  mod8 [Channel.mod8 _, Addressee.mod8 _ _]
theorem InterfaceTxStatus.mod8 (cfg : Cfg) (h : InterfaceTxStatus) : Mod8 (h.write cfg) 0 := by
  cases h <;> unfold InterfaceTxStatus.write <;> mod8 [Dash7InterfaceTxStatus.mod8 _ _]

theorem Dash7InterfaceConfiguration.mod8 (cfg : Cfg) (h : Dash7InterfaceConfiguration) :
    Mod8 (h.write cfg) 0 := by
  have h1 : ∀ v, Mod8 (writeExecutionDelay cfg v) 0 := by
    intro v; unfold writeExecutionDelay; split <;> mod8 [VarInt.mod8 _]
  unfold Dash7InterfaceConfiguration.write
  mod8 [QoS.mod8 _, VarInt.mod8 _, h1 _, Addressee.mod8 _ _]
theorem LoRaWANInterfaceConfiguration.mod8 (h : LoRaWANInterfaceConfiguration) : Mod8 h.write 0 := by
  unfold LoRaWANInterfaceConfiguration.write; mod8 []
theorem LoRaWANOTAAInterfaceConfiguration.mod8 (h : LoRaWANOTAAInterfaceConfiguration) :
    Mod8 h.write 0 := by
  unfold LoRaWANOTAAInterfaceConfiguration.write; mod8 [LoRaWANInterfaceConfiguration.mod8 _]
theorem LoRaWANABPInterfaceConfiguration.mod8 (cfg : Cfg) (h : LoRaWANABPInterfaceConfiguration) :
    Mod8 (h.write cfg) 0 := by
  unfold LoRaWANABPInterfaceConfiguration.write; mod8 [LoRaWANInterfaceConfiguration.mod8 _]
theorem InterfaceConfiguration.mod8 (cfg : Cfg) (h : InterfaceConfiguration) :
    Mod8 (h.write cfg) 0 := by
  cases h <;> unfold InterfaceConfiguration.write <;>
    mod8 [LoRaWANABPInterfaceConfiguration.mod8 _ _, LoRaWANOTAAInterfaceConfiguration.mod8 _,
      Dash7InterfaceConfiguration.mod8 _ _]
theorem IndirectInterface.mod8 (cfg : Cfg) (h : IndirectInterface) : Mod8 (h.write cfg) 0 := by
  cases h <;> unfold IndirectInterface.write <;> mod8 [Addressee.mod8 _ _]

theorem Query.mod8 (q : Query) : Mod8 q.write 0 := by
  cases q <;> unfold Query.write <;>
    first
    | unfold NonVoid.write; mod8 [Length.mod8 _, FileOffset.mod8 _]
    | unfold ComparisonWithZero.write ArithmeticQueryParams.write ArithmeticComparisonType.write
      mod8 [Length.mod8 _, FileOffset.mod8 _]
    | unfold ComparisonWithValue.write ArithmeticQueryParams.write ArithmeticComparisonType.write
      mod8 [Length.mod8 _, FileOffset.mod8 _]
    | unfold ComparisonWithOtherFile.write ArithmeticQueryParams.write ArithmeticComparisonType.write
      mod8 [Length.mod8 _, FileOffset.mod8 _]
    | unfold BitmapRangeComparison.write RangeQueryParams.write RangeComparisonType.write
      mod8 [Length.mod8 _, FileOffset.mod8 _]
    | unfold StringTokenSearch.write; mod8 [Length.mod8 _, FileOffset.mod8 _]

theorem File.mod8 (cfg : Cfg) (f : File) : Mod8 (f.write cfg) 0 := by
  cases f with
  | accessProfile i p => exact AccessProfile.mod8 p
  | uId a => exact Address.mod8 a
  | factorySettings f => unfold File.write FactorySettings.write; mod8 []
  | firmwareVersion f => unfold File.write FirmwareVersion.write writeString; mod8 []
  | engineeringMode f =>
    unfold File.write EngineeringMode.write EngineeringModeMethod.write; mod8 [Channel.mod8 _]
  | vId a => exact Address.mod8 a
  | phyStatus f => unfold File.write PhyStatus.write; mod8 [Mod8.list ChannelStatus.mod8 _]
  | dllConfig f => unfold File.write DllConfig.write; mod8 []
  | dllStatus f => unfold File.write DllStatus.write; mod8 [ChannelHeader.mod8 _]
  | nwlSecurityKey f => unfold File.write SecurityKey.write; mod8 []
  | other b => exact Mod8.bytes

theorem Permission.mod8 (s : Permission) : Mod8 s.write 0 := by
  cases s; unfold Permission.write; mod8 []

namespace Op

theorem Status.mod8 (cfg : Cfg) (s : Op.Status) : Mod8 (s.write cfg) 0 := by
  cases s with
  | action s =>
    show Mod8 s.write 0
    unfold ActionStatus.write StatusCode.write; mod8 []
  | interface o =>
    show Mod8 (o.write cfg) 0
    unfold InterfaceStatusOperation.write
    mod8 [InterfaceType.mod8 _, writeLengthPrefixed_mod8 _]
  | interfaceFinal o =>
    show Mod8 o.write 0
    unfold InterfaceFinalStatusOperation.write; mod8 [writeLengthPrefixed_mod8 _]

end Op

namespace Action

/-- Every action but TX status takes whole bytes. -/
theorem mod8 (cfg : Cfg) (a : Action) (h : a.isTx = false) : Mod8 (a.write cfg) 0 := by
  have hh : ∀ h : ActionHeader, Mod8 h.write 2 := by
    intro h; unfold ActionHeader.write; mod8 []
  cases a with
  | txStatus o => cases h
  | nop o => simp only [write, Op.Nop.write, OpCode.write]; mod8 [hh _]
  | readFileData o =>
    simp only [write, Op.ReadFileData.write, OpCode.write]; mod8 [hh _, FileOffset.mod8 _, Length.mod8 _]
  | writeFileData o | writeFileDataFlush o | returnFileData o =>
    simp only [write, Op.FileData.write, OpCode.write, Op.FileData.writeData]
    mod8 [hh _, FileOffset.mod8 _, writeLengthPrefixed_mod8 _]
  | writeFileProperties o | createNewFile o | returnFileProperties o =>
    simp only [write, Op.FileProperties.write, OpCode.write]; mod8 [hh _, Data.FileHeader.mod8 _]
  | actionQuery o | breakQuery o | verifyChecksum o =>
    simp only [write, Op.ActionQuery.write, OpCode.write]; mod8 [hh _, Query.mod8 _]
  | permissionRequest o =>
    simp only [write, Op.PermissionRequest.write, OpCode.write, PermissionLevel.write]
    mod8 [hh _, Permission.mod8 _]
  | readFileProperties o | existFile o | deleteFile o | restoreFile o | flushFile o | executeFile o =>
    simp only [write, Op.FileId.write, OpCode.write]; mod8 [hh _]
  | copyFile o => simp only [write, Op.CopyFile.write, OpCode.write]; mod8 [hh _]
  | status o =>
    simp only [write, Op.StatusOperand.write, OpCode.write, Op.StatusType.write]
    mod8 [Op.Status.mod8 _ _]
  | responseTag o =>
    simp only [write, Op.ResponseTag.write, OpCode.write, Op.ResponseTagHeader.write]; mod8 []
  | chunk o => simp only [write, Op.Chunk.write, OpCode.write, Op.ChunkStep.write]; mod8 []
  | logic o => simp only [write, Op.Logic.write, OpCode.write, Op.LogicOp.write]; mod8 []
  | forward o =>
    simp only [write, Op.Forward.write, OpCode.write]; mod8 [InterfaceConfiguration.mod8 _ _]
  | indirectForward o =>
    simp only [write, Op.IndirectForward.write, OpCode.write, Op.IndirectForwardHeader.write]
    mod8 [Mod8.opt (IndirectInterface.mod8 _) _]
  | requestTag o => simp only [write, Op.RequestTag.write, OpCode.write]; mod8 []
  | extension o => simp only [write, Op.Extension.write, OpCode.write]; mod8 [hh _]

/-- A TX status takes six bits too many. -/
theorem tx_mod8 (cfg : Cfg) (o : Op.TxStatusOperation) : Mod8 ((Action.txStatus o).write cfg) 6 := by
  simp only [write, Op.TxStatusOperation.write, OpCode.write, Op.InterfaceTxStatusOperation.write]
  mod8 [writeLengthPrefixed_mod8 _]

end Action
end Dash7
