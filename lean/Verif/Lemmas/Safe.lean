import Verif.Lemmas.Core
import Verif.Lemmas.Types
import Verif.Model.Action

/-!
# Which faults the derive-generated readers can raise

Besides running out of input, only `Parse`; in particular no panic.
-/

namespace Dash7

/-- The only fault is a parse error. -/
def P.Safe {α : Type} (p : P α) : Prop := ∀ s f, p.eval s = .error (.fault f) → f = .parse

namespace P.Safe

variable {α β : Type}

theorem pure {a : α} : (P.pure a).Safe := by intro s f h; cases h

theorem fail : (P.fail .parse : P α).Safe := by intro s f h; cases h; rfl

theorem bits {n : Nat} {k : List Bool → P α} (h : ∀ l, (k l).Safe) : (P.bits n k).Safe := by
  intro s f hf
  rw [P.eval_bits] at hf
  split at hf
  · exact h _ _ _ hf
  · cases hf

theorem bind {p : P α} {g : α → P β} (h1 : p.Safe) (h2 : ∀ a, (g a).Safe) : (p.bind g).Safe := by
  intro s f hf
  rw [P.eval_bind] at hf
  split at hf
  · exact h2 _ _ _ hf
  · rename_i he
    cases hf
    exact h1 _ _ he

theorem uint {w n : Nat} : (P.uint w n).Safe := by
  unfold P.uint
  split
  · exact fail
  · exact bits fun _ => pure

theorem u8 : P.u8.Safe := uint
theorem flag : P.flag.Safe := bits fun _ => pure
theorem pad {n : Nat} : (P.pad n).Safe := bits fun _ => pure
theorem uintLE {k : Nat} : (P.uintLE k).Safe := bits fun _ => pure
theorem uintHost {cfg : Cfg} {k : Nat} : (P.uintHost cfg k).Safe := by
  unfold P.uintHost
  split
  · exact uint
  · exact uintLE

theorem count {p : P α} {n : Nat} (h : p.Safe) : (p.count n).Safe := by
  induction n with
  | zero => exact pure
  | succ n ih => exact bind h fun _ => bind ih fun _ => pure

theorem array {p : P α} {n : Nat} (h : p.Safe) : (p.array n).Safe := by
  induction n with
  | zero => exact pure
  | succ n ih => exact bind ih fun _ => bind h fun _ => pure

theorem enum {ε : Type} {n : Nat} {ofId : U8 → Option ε} : (P.enum n ofId).Safe := by
  refine bind uint fun i => ?_
  split
  · exact pure
  · exact fail

theorem cond {p : P α} {c : Bool} (h : p.Safe) : (P.cond c p).Safe := by
  unfold P.cond
  split
  · exact bind h fun _ => pure
  · exact pure

end P.Safe

/-- Known readers. -/
syntax "safe_leaf" : tactic
macro_rules | `(tactic| safe_leaf) => `(tactic| with_reducible exact P.Safe.pure)
macro_rules | `(tactic| safe_leaf) => `(tactic| with_reducible exact P.Safe.fail)
macro_rules | `(tactic| safe_leaf) => `(tactic| with_reducible exact P.Safe.uint)
macro_rules | `(tactic| safe_leaf) => `(tactic| with_reducible exact P.Safe.u8)
macro_rules | `(tactic| safe_leaf) => `(tactic| with_reducible exact P.Safe.flag)
macro_rules | `(tactic| safe_leaf) => `(tactic| with_reducible exact P.Safe.pad)
macro_rules | `(tactic| safe_leaf) => `(tactic| with_reducible exact P.Safe.uintLE)
macro_rules | `(tactic| safe_leaf) => `(tactic| with_reducible exact P.Safe.uintHost)
macro_rules | `(tactic| safe_leaf) => `(tactic| with_reducible exact P.Safe.enum)

/-- Structural decomposition of a reader. -/
macro "safe" : tactic => `(tactic| (
  (try simp only [P.bind_eq])
  repeat' (first
    | safe_leaf
    | (with_reducible refine P.Safe.bind ?_ fun _ => ?_)
    | (with_reducible refine P.Safe.count ?_)
    | (with_reducible refine P.Safe.array ?_)
    | (with_reducible refine P.Safe.cond ?_)
    | split)))

theorem P.Safe.bindPost {α β : Type} {p : P α} {g : α → P β} {Q : α → Nat → Prop}
    (hp : Post p Q) (h1 : p.Safe) (h2 : ∀ a n, Q a n → (g a).Safe) : (p.bind g).Safe := by
  intro s f hf
  rw [P.eval_bind] at hf
  split at hf
  · rename_i a s' he
    obtain ⟨c, rfl, _⟩ := P.eval_ok p he
    exact h2 a _ (hp _ _ _ he) _ _ hf
  · rename_i he
    cases hf
    exact h1 _ _ he

theorem VarInt.safe : VarInt.read.Safe := by
  refine P.Safe.bindPost Post.uint P.Safe.uint fun e n1 ⟨h1, _, he, _⟩ => ?_
  refine P.Safe.bindPost Post.uint P.Safe.uint fun m n2 ⟨h2, _, hm, _⟩ => ?_
  have he' : e.toNat < 8 := by simpa using he
  have hm' : m.toNat < 32 := by simpa using hm
  rw [(decompress_eq he' hm').1]
  exact P.Safe.pure
macro_rules | `(tactic| safe_leaf) => `(tactic| with_reducible exact VarInt.safe)

theorem Length.safe : Length.read.Safe := by unfold Length.read; safe
macro_rules | `(tactic| safe_leaf) => `(tactic| with_reducible exact Length.safe)
theorem FileOffset.safe : FileOffset.read.Safe := by unfold FileOffset.read; safe
macro_rules | `(tactic| safe_leaf) => `(tactic| with_reducible exact FileOffset.safe)

theorem Bandwidth.safe  : P.Safe Bandwidth.read := by
  unfold Bandwidth.read; safe
macro_rules | `(tactic| safe_leaf) => `(tactic| with_reducible exact Bandwidth.safe)
theorem ChannelBand.safe  : P.Safe ChannelBand.read := by
  unfold ChannelBand.read; safe
macro_rules | `(tactic| safe_leaf) => `(tactic| with_reducible exact ChannelBand.safe)
theorem ChannelClass.safe  : P.Safe ChannelClass.read := by
  unfold ChannelClass.read; safe
macro_rules | `(tactic| safe_leaf) => `(tactic| with_reducible exact ChannelClass.safe)
theorem ChannelCoding.safe  : P.Safe ChannelCoding.read := by
  unfold ChannelCoding.read; safe
macro_rules | `(tactic| safe_leaf) => `(tactic| with_reducible exact ChannelCoding.safe)
theorem ChannelHeader.safe  : P.Safe ChannelHeader.read := by
  unfold ChannelHeader.read; safe
macro_rules | `(tactic| safe_leaf) => `(tactic| with_reducible exact ChannelHeader.safe)
theorem Channel.safe  : P.Safe Channel.read := by
  unfold Channel.read; safe
macro_rules | `(tactic| safe_leaf) => `(tactic| with_reducible exact Channel.safe)
theorem ChannelStatusIdentifier.safe  : P.Safe ChannelStatusIdentifier.read := by
  unfold ChannelStatusIdentifier.read; safe
macro_rules | `(tactic| safe_leaf) => `(tactic| with_reducible exact ChannelStatusIdentifier.safe)
theorem SubBand.safe  : P.Safe SubBand.read := by
  unfold SubBand.read; safe
macro_rules | `(tactic| safe_leaf) => `(tactic| with_reducible exact SubBand.safe)
theorem ChannelStatus.safe  : P.Safe ChannelStatus.read := by
  unfold ChannelStatus.read; safe
macro_rules | `(tactic| safe_leaf) => `(tactic| with_reducible exact ChannelStatus.safe)
theorem SubProfile.safe  : P.Safe SubProfile.read := by
  unfold SubProfile.read; safe
macro_rules | `(tactic| safe_leaf) => `(tactic| with_reducible exact SubProfile.safe)
theorem AccessClass.safe  : P.Safe AccessClass.read := by
  unfold AccessClass.read; safe
macro_rules | `(tactic| safe_leaf) => `(tactic| with_reducible exact AccessClass.safe)
theorem AccessProfile.safe  : P.Safe AccessProfile.read := by
  unfold AccessProfile.read; safe
macro_rules | `(tactic| safe_leaf) => `(tactic| with_reducible exact AccessProfile.safe)
theorem GroupCondition.safe  : P.Safe GroupCondition.read := by
  unfold GroupCondition.read; safe
macro_rules | `(tactic| safe_leaf) => `(tactic| with_reducible exact GroupCondition.safe)
theorem NlsMethod.safe (cfg : Cfg) : P.Safe (NlsMethod.read cfg) := by
  unfold NlsMethod.read; safe
macro_rules | `(tactic| safe_leaf) => `(tactic| with_reducible exact NlsMethod.safe _)
theorem NlsState.safe (m : NlsMethod) : P.Safe (NlsState.read m) := by
  unfold NlsState.read; safe
macro_rules | `(tactic| safe_leaf) => `(tactic| with_reducible exact NlsState.safe _)
theorem AddressType.safe  : P.Safe AddressType.read := by
  unfold AddressType.read; safe
macro_rules | `(tactic| safe_leaf) => `(tactic| with_reducible exact AddressType.safe)
theorem Address.safe (t : AddressType) : P.Safe (Address.read t) := by
  unfold Address.read; safe
macro_rules | `(tactic| safe_leaf) => `(tactic| with_reducible exact Address.safe _)
theorem Addressee.readCtlWizzilab_safe (cfg : Cfg) : P.Safe (Addressee.readCtlWizzilab cfg) := by
  unfold Addressee.readCtlWizzilab; safe
macro_rules | `(tactic| safe_leaf) => `(tactic| with_reducible exact Addressee.readCtlWizzilab_safe _)
theorem Addressee.readCtl_safe (cfg : Cfg) : P.Safe (Addressee.readCtl cfg) := by
  unfold Addressee.readCtl; safe
macro_rules | `(tactic| safe_leaf) => `(tactic| with_reducible exact Addressee.readCtl_safe _)
theorem Addressee.safe (cfg : Cfg) : P.Safe (Addressee.read cfg) := by
  unfold Addressee.read; safe
macro_rules | `(tactic| safe_leaf) => `(tactic| with_reducible exact Addressee.safe _)
theorem Data.ActionCondition.safe  : P.Safe Data.ActionCondition.reader := by
  unfold Data.ActionCondition.reader; safe
macro_rules | `(tactic| safe_leaf) => `(tactic| with_reducible exact Data.ActionCondition.safe)
theorem Data.StorageClass.safe  : P.Safe Data.StorageClass.read := by
  unfold Data.StorageClass.read; safe
macro_rules | `(tactic| safe_leaf) => `(tactic| with_reducible exact Data.StorageClass.safe)
theorem Data.UserPermissions.safe  : P.Safe Data.UserPermissions.reader := by
  unfold Data.UserPermissions.reader; safe
macro_rules | `(tactic| safe_leaf) => `(tactic| with_reducible exact Data.UserPermissions.safe)
theorem Data.FilePermissions.safe  : P.Safe Data.FilePermissions.read := by
  unfold Data.FilePermissions.read; safe
macro_rules | `(tactic| safe_leaf) => `(tactic| with_reducible exact Data.FilePermissions.safe)
theorem Data.FileProperties.safe  : P.Safe Data.FileProperties.read := by
  unfold Data.FileProperties.read; safe
macro_rules | `(tactic| safe_leaf) => `(tactic| with_reducible exact Data.FileProperties.safe)
theorem Data.FileHeader.safe  : P.Safe Data.FileHeader.read := by
  unfold Data.FileHeader.read; safe
macro_rules | `(tactic| safe_leaf) => `(tactic| with_reducible exact Data.FileHeader.safe)
theorem ResponseMode.safe  : P.Safe ResponseMode.read := by
  unfold ResponseMode.read; safe
macro_rules | `(tactic| safe_leaf) => `(tactic| with_reducible exact ResponseMode.safe)
theorem RetryMode.safe  : P.Safe RetryMode.read := by
  unfold RetryMode.read; safe
macro_rules | `(tactic| safe_leaf) => `(tactic| with_reducible exact RetryMode.safe)
theorem QoS.safe  : P.Safe QoS.read := by
  unfold QoS.read; safe
macro_rules | `(tactic| safe_leaf) => `(tactic| with_reducible exact QoS.safe)
theorem Dash7InterfaceStatus.safe (cfg : Cfg) : P.Safe (Dash7InterfaceStatus.read cfg) := by
  unfold Dash7InterfaceStatus.read; safe
macro_rules | `(tactic| safe_leaf) => `(tactic| with_reducible exact Dash7InterfaceStatus.safe _)
theorem InterfaceStatus.safe (cfg : Cfg) (t : InterfaceType) (length : U32) : P.Safe (InterfaceStatus.read cfg t length) := by
  unfold InterfaceStatus.read; safe
macro_rules | `(tactic| safe_leaf) => `(tactic| with_reducible exact InterfaceStatus.safe _ _ _)
theorem InterfaceFinalStatusCode.safe  : P.Safe InterfaceFinalStatusCode.read := by
  unfold InterfaceFinalStatusCode.read; safe
macro_rules | `(tactic| safe_leaf) => `(tactic| with_reducible exact InterfaceFinalStatusCode.safe)
theorem InterfaceFinalStatus.safe (interfaceId : U8) (length : U32) : P.Safe (InterfaceFinalStatus.read interfaceId length) := by
  unfold InterfaceFinalStatus.read; safe
macro_rules | `(tactic| safe_leaf) => `(tactic| with_reducible exact InterfaceFinalStatus.safe _ _)
theorem Dash7InterfaceTxStatus.safe (cfg : Cfg) : P.Safe (Dash7InterfaceTxStatus.read cfg) := by
  unfold Dash7InterfaceTxStatus.read; safe
macro_rules | `(tactic| safe_leaf) => `(tactic| with_reducible exact Dash7InterfaceTxStatus.safe _)
theorem InterfaceTxStatus.safe (cfg : Cfg) (interfaceId : U8) (length : U32) : P.Safe (InterfaceTxStatus.read cfg interfaceId length) := by
  unfold InterfaceTxStatus.read; safe
macro_rules | `(tactic| safe_leaf) => `(tactic| with_reducible exact InterfaceTxStatus.safe _ _ _)
theorem readExecutionDelay_safe (cfg : Cfg) : P.Safe (readExecutionDelay cfg) := by
  unfold readExecutionDelay; safe
macro_rules | `(tactic| safe_leaf) => `(tactic| with_reducible exact readExecutionDelay_safe _)
theorem Dash7InterfaceConfiguration.safe (cfg : Cfg) : P.Safe (Dash7InterfaceConfiguration.read cfg) := by
  unfold Dash7InterfaceConfiguration.read; safe
macro_rules | `(tactic| safe_leaf) => `(tactic| with_reducible exact Dash7InterfaceConfiguration.safe _)
theorem LoRaWANInterfaceConfiguration.safe  : P.Safe LoRaWANInterfaceConfiguration.read := by
  unfold LoRaWANInterfaceConfiguration.read; safe
macro_rules | `(tactic| safe_leaf) => `(tactic| with_reducible exact LoRaWANInterfaceConfiguration.safe)
theorem LoRaWANOTAAInterfaceConfiguration.safe  : P.Safe LoRaWANOTAAInterfaceConfiguration.read := by
  unfold LoRaWANOTAAInterfaceConfiguration.read; safe
macro_rules | `(tactic| safe_leaf) => `(tactic| with_reducible exact LoRaWANOTAAInterfaceConfiguration.safe)
theorem LoRaWANABPInterfaceConfiguration.safe (cfg : Cfg) : P.Safe (LoRaWANABPInterfaceConfiguration.read cfg) := by
  unfold LoRaWANABPInterfaceConfiguration.read; safe
macro_rules | `(tactic| safe_leaf) => `(tactic| with_reducible exact LoRaWANABPInterfaceConfiguration.safe _)
theorem InterfaceConfiguration.safe (cfg : Cfg) : P.Safe (InterfaceConfiguration.read cfg) := by
  unfold InterfaceConfiguration.read; safe
macro_rules | `(tactic| safe_leaf) => `(tactic| with_reducible exact InterfaceConfiguration.safe _)
theorem IndirectInterface.safe (cfg : Cfg) : P.Safe (IndirectInterface.read cfg) := by
  unfold IndirectInterface.read; safe
macro_rules | `(tactic| safe_leaf) => `(tactic| with_reducible exact IndirectInterface.safe _)
theorem ArithmeticComparisonType.safe  : P.Safe ArithmeticComparisonType.read := by
  unfold ArithmeticComparisonType.read; safe
macro_rules | `(tactic| safe_leaf) => `(tactic| with_reducible exact ArithmeticComparisonType.safe)
theorem ArithmeticQueryParams.safe  : P.Safe ArithmeticQueryParams.read := by
  unfold ArithmeticQueryParams.read; safe
macro_rules | `(tactic| safe_leaf) => `(tactic| with_reducible exact ArithmeticQueryParams.safe)
theorem RangeComparisonType.safe  : P.Safe RangeComparisonType.read := by
  unfold RangeComparisonType.read; safe
macro_rules | `(tactic| safe_leaf) => `(tactic| with_reducible exact RangeComparisonType.safe)
theorem RangeQueryParams.safe  : P.Safe RangeQueryParams.read := by
  unfold RangeQueryParams.read; safe
macro_rules | `(tactic| safe_leaf) => `(tactic| with_reducible exact RangeQueryParams.safe)
theorem readMaskIf_safe (present : Bool) (length : Length) : P.Safe (readMaskIf present length) := by
  unfold readMaskIf; safe
macro_rules | `(tactic| safe_leaf) => `(tactic| with_reducible exact readMaskIf_safe _ _)
theorem NonVoid.safe  : P.Safe NonVoid.read := by
  unfold NonVoid.read; safe
macro_rules | `(tactic| safe_leaf) => `(tactic| with_reducible exact NonVoid.safe)
theorem ComparisonWithZero.safe  : P.Safe ComparisonWithZero.read := by
  unfold ComparisonWithZero.read; safe
macro_rules | `(tactic| safe_leaf) => `(tactic| with_reducible exact ComparisonWithZero.safe)
theorem ComparisonWithValue.safe  : P.Safe ComparisonWithValue.read := by
  unfold ComparisonWithValue.read; safe
macro_rules | `(tactic| safe_leaf) => `(tactic| with_reducible exact ComparisonWithValue.safe)
theorem ComparisonWithOtherFile.safe  : P.Safe ComparisonWithOtherFile.read := by
  unfold ComparisonWithOtherFile.read; safe
macro_rules | `(tactic| safe_leaf) => `(tactic| with_reducible exact ComparisonWithOtherFile.safe)
theorem BitmapRangeComparison.safe  : P.Safe BitmapRangeComparison.read := by
  unfold BitmapRangeComparison.read; safe
macro_rules | `(tactic| safe_leaf) => `(tactic| with_reducible exact BitmapRangeComparison.safe)
theorem StringTokenSearch.safe  : P.Safe StringTokenSearch.read := by
  unfold StringTokenSearch.read; safe
macro_rules | `(tactic| safe_leaf) => `(tactic| with_reducible exact StringTokenSearch.safe)
theorem Query.safe  : P.Safe Query.read := by
  unfold Query.read; safe
macro_rules | `(tactic| safe_leaf) => `(tactic| with_reducible exact Query.safe)
theorem readString_safe (n : Nat) : P.Safe (readString n) := by
  unfold readString; safe
macro_rules | `(tactic| safe_leaf) => `(tactic| with_reducible exact readString_safe _)
theorem DllConfig.safe  : P.Safe DllConfig.read := by
  unfold DllConfig.read; safe
macro_rules | `(tactic| safe_leaf) => `(tactic| with_reducible exact DllConfig.safe)
theorem DllStatus.safe  : P.Safe DllStatus.read := by
  unfold DllStatus.read; safe
macro_rules | `(tactic| safe_leaf) => `(tactic| with_reducible exact DllStatus.safe)
theorem EngineeringModeMethod.safe  : P.Safe EngineeringModeMethod.read := by
  unfold EngineeringModeMethod.read; safe
macro_rules | `(tactic| safe_leaf) => `(tactic| with_reducible exact EngineeringModeMethod.safe)
theorem EngineeringMode.safe  : P.Safe EngineeringMode.read := by
  unfold EngineeringMode.read; safe
macro_rules | `(tactic| safe_leaf) => `(tactic| with_reducible exact EngineeringMode.safe)
theorem FactorySettings.safe  : P.Safe FactorySettings.read := by
  unfold FactorySettings.read; safe
macro_rules | `(tactic| safe_leaf) => `(tactic| with_reducible exact FactorySettings.safe)
theorem FirmwareVersion.safe  : P.Safe FirmwareVersion.read := by
  unfold FirmwareVersion.read; safe
macro_rules | `(tactic| safe_leaf) => `(tactic| with_reducible exact FirmwareVersion.safe)
theorem PhyStatus.safe  : P.Safe PhyStatus.read := by
  unfold PhyStatus.read; safe
macro_rules | `(tactic| safe_leaf) => `(tactic| with_reducible exact PhyStatus.safe)
theorem SecurityKey.safe (cfg : Cfg) : P.Safe (SecurityKey.read cfg) := by
  unfold SecurityKey.read; safe
macro_rules | `(tactic| safe_leaf) => `(tactic| with_reducible exact SecurityKey.safe _)
theorem File.safe (cfg : Cfg) (fid : FileId) (length : U32) : P.Safe (File.read cfg fid length) := by
  unfold File.read; safe
macro_rules | `(tactic| safe_leaf) => `(tactic| with_reducible exact File.safe _ _ _)
theorem OpCode.safe  : P.Safe OpCode.read := by
  unfold OpCode.read; safe
macro_rules | `(tactic| safe_leaf) => `(tactic| with_reducible exact OpCode.safe)
theorem StatusCode.safe  : P.Safe StatusCode.read := by
  unfold StatusCode.read; safe
macro_rules | `(tactic| safe_leaf) => `(tactic| with_reducible exact StatusCode.safe)
theorem ActionStatus.safe  : P.Safe ActionStatus.read := by
  unfold ActionStatus.read; safe
macro_rules | `(tactic| safe_leaf) => `(tactic| with_reducible exact ActionStatus.safe)
theorem Permission.safe  : P.Safe Permission.read := by
  unfold Permission.read; safe
macro_rules | `(tactic| safe_leaf) => `(tactic| with_reducible exact Permission.safe)
theorem PermissionLevel.safe  : P.Safe PermissionLevel.read := by
  unfold PermissionLevel.read; safe
macro_rules | `(tactic| safe_leaf) => `(tactic| with_reducible exact PermissionLevel.safe)
theorem ActionHeader.safe  : P.Safe ActionHeader.read := by
  unfold ActionHeader.read; safe
macro_rules | `(tactic| safe_leaf) => `(tactic| with_reducible exact ActionHeader.safe)
theorem Op.Nop.safe  : P.Safe Op.Nop.read := by
  unfold Op.Nop.read; safe
macro_rules | `(tactic| safe_leaf) => `(tactic| with_reducible exact Op.Nop.safe)
theorem Op.FileId.safe  : P.Safe Op.FileId.read := by
  unfold Op.FileId.read; safe
macro_rules | `(tactic| safe_leaf) => `(tactic| with_reducible exact Op.FileId.safe)
theorem Op.FileData.readData_safe (cfg : Cfg) (offset : FileOffset) : P.Safe (Op.FileData.readData cfg offset) := by
  unfold Op.FileData.readData; safe
macro_rules | `(tactic| safe_leaf) => `(tactic| with_reducible exact Op.FileData.readData_safe _ _)
theorem Op.FileData.safe (cfg : Cfg) : P.Safe (Op.FileData.read cfg) := by
  unfold Op.FileData.read; safe
macro_rules | `(tactic| safe_leaf) => `(tactic| with_reducible exact Op.FileData.safe _)
theorem Op.FileProperties.safe  : P.Safe Op.FileProperties.read := by
  unfold Op.FileProperties.read; safe
macro_rules | `(tactic| safe_leaf) => `(tactic| with_reducible exact Op.FileProperties.safe)
theorem Op.ReadFileData.safe  : P.Safe Op.ReadFileData.read := by
  unfold Op.ReadFileData.read; safe
macro_rules | `(tactic| safe_leaf) => `(tactic| with_reducible exact Op.ReadFileData.safe)
theorem Op.ActionQuery.safe  : P.Safe Op.ActionQuery.read := by
  unfold Op.ActionQuery.read; safe
macro_rules | `(tactic| safe_leaf) => `(tactic| with_reducible exact Op.ActionQuery.safe)
theorem Op.PermissionRequest.safe  : P.Safe Op.PermissionRequest.read := by
  unfold Op.PermissionRequest.read; safe
macro_rules | `(tactic| safe_leaf) => `(tactic| with_reducible exact Op.PermissionRequest.safe)
theorem Op.CopyFile.safe  : P.Safe Op.CopyFile.read := by
  unfold Op.CopyFile.read; safe
macro_rules | `(tactic| safe_leaf) => `(tactic| with_reducible exact Op.CopyFile.safe)
theorem Op.StatusType.safe  : P.Safe Op.StatusType.read := by
  unfold Op.StatusType.read; safe
macro_rules | `(tactic| safe_leaf) => `(tactic| with_reducible exact Op.StatusType.safe)
theorem Op.lengthAfter_safe (b : U8) : P.Safe (Op.lengthAfter b) := by
  unfold Op.lengthAfter; safe
macro_rules | `(tactic| safe_leaf) => `(tactic| with_reducible exact Op.lengthAfter_safe _)
theorem Op.statusLength_safe (cfg : Cfg) (b : U8) : P.Safe (Op.statusLength cfg b) := by
  unfold Op.statusLength; safe
macro_rules | `(tactic| safe_leaf) => `(tactic| with_reducible exact Op.statusLength_safe _ _)
theorem Op.InterfaceStatusOperation.safe (cfg : Cfg) : P.Safe (Op.InterfaceStatusOperation.read cfg) := by
  unfold Op.InterfaceStatusOperation.read; safe
macro_rules | `(tactic| safe_leaf) => `(tactic| with_reducible exact Op.InterfaceStatusOperation.safe _)
theorem Op.InterfaceFinalStatusOperation.safe  : P.Safe Op.InterfaceFinalStatusOperation.read := by
  unfold Op.InterfaceFinalStatusOperation.read; safe
macro_rules | `(tactic| safe_leaf) => `(tactic| with_reducible exact Op.InterfaceFinalStatusOperation.safe)
theorem Op.Status.safe (cfg : Cfg) (t : StatusType) : P.Safe (Op.Status.read cfg t) := by
  unfold Op.Status.read; safe
macro_rules | `(tactic| safe_leaf) => `(tactic| with_reducible exact Op.Status.safe _ _)
theorem Op.StatusOperand.safe (cfg : Cfg) : P.Safe (Op.StatusOperand.read cfg) := by
  unfold Op.StatusOperand.read; safe
macro_rules | `(tactic| safe_leaf) => `(tactic| with_reducible exact Op.StatusOperand.safe _)
theorem Op.ResponseTagHeader.safe  : P.Safe Op.ResponseTagHeader.read := by
  unfold Op.ResponseTagHeader.read; safe
macro_rules | `(tactic| safe_leaf) => `(tactic| with_reducible exact Op.ResponseTagHeader.safe)
theorem Op.ResponseTag.safe  : P.Safe Op.ResponseTag.read := by
  unfold Op.ResponseTag.read; safe
macro_rules | `(tactic| safe_leaf) => `(tactic| with_reducible exact Op.ResponseTag.safe)
theorem Op.ChunkStep.safe  : P.Safe Op.ChunkStep.read := by
  unfold Op.ChunkStep.read; safe
macro_rules | `(tactic| safe_leaf) => `(tactic| with_reducible exact Op.ChunkStep.safe)
theorem Op.Chunk.safe  : P.Safe Op.Chunk.read := by
  unfold Op.Chunk.read; safe
macro_rules | `(tactic| safe_leaf) => `(tactic| with_reducible exact Op.Chunk.safe)
theorem Op.LogicOp.safe  : P.Safe Op.LogicOp.read := by
  unfold Op.LogicOp.read; safe
macro_rules | `(tactic| safe_leaf) => `(tactic| with_reducible exact Op.LogicOp.safe)
theorem Op.Logic.safe  : P.Safe Op.Logic.read := by
  unfold Op.Logic.read; safe
macro_rules | `(tactic| safe_leaf) => `(tactic| with_reducible exact Op.Logic.safe)
theorem Op.Forward.safe (cfg : Cfg) : P.Safe (Op.Forward.read cfg) := by
  unfold Op.Forward.read; safe
macro_rules | `(tactic| safe_leaf) => `(tactic| with_reducible exact Op.Forward.safe _)
theorem Op.IndirectForwardHeader.safe  : P.Safe Op.IndirectForwardHeader.read := by
  unfold Op.IndirectForwardHeader.read; safe
macro_rules | `(tactic| safe_leaf) => `(tactic| with_reducible exact Op.IndirectForwardHeader.safe)
theorem Op.IndirectForward.safe (cfg : Cfg) : P.Safe (Op.IndirectForward.read cfg) := by
  unfold Op.IndirectForward.read; safe
macro_rules | `(tactic| safe_leaf) => `(tactic| with_reducible exact Op.IndirectForward.safe _)
theorem Op.RequestTag.safe  : P.Safe Op.RequestTag.read := by
  unfold Op.RequestTag.read; safe
macro_rules | `(tactic| safe_leaf) => `(tactic| with_reducible exact Op.RequestTag.safe)
theorem Op.Extension.safe  : P.Safe Op.Extension.read := by
  unfold Op.Extension.read; safe
macro_rules | `(tactic| safe_leaf) => `(tactic| with_reducible exact Op.Extension.safe)
theorem Op.InterfaceTxStatusOperation.safe (cfg : Cfg) : P.Safe (Op.InterfaceTxStatusOperation.read cfg) := by
  unfold Op.InterfaceTxStatusOperation.read; safe
macro_rules | `(tactic| safe_leaf) => `(tactic| with_reducible exact Op.InterfaceTxStatusOperation.safe _)
theorem Op.TxStatusOperation.safe (cfg : Cfg) : P.Safe (Op.TxStatusOperation.read cfg) := by
  unfold Op.TxStatusOperation.read; safe
macro_rules | `(tactic| safe_leaf) => `(tactic| with_reducible exact Op.TxStatusOperation.safe _)

end Dash7
