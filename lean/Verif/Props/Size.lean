import Verif.Spec.Size
import Verif.Props.FrameLayout

/-!
# C85: sizes of encodings
-/

namespace Dash7
open Sample

namespace Size

/-- The number of bytes. -/
def of (o : Option (List U8)) : Option Nat := o.map List.length

theorem of_join (ps : List (Option (List U8))) : of (Wire.join ps) = sum (ps.map of) := by
  induction ps with
  | nil => rfl
  | cons p ps ih =>
    cases p with
    | none => rfl
    | some b =>
      simp only [Wire.join, List.map_cons]
      cases hj : Wire.join ps with
      | none => rw [hj] at ih; simp only [of, Option.map_none] at ih ⊢; simp only [Option.map_some, sum, ← ih]
      | some bs =>
        rw [hj] at ih
        simp only [of, Option.map_some] at ih ⊢
        simp only [sum, ← ih, List.length_append]

theorem bigEndian_length (n v : Nat) : (Spec.bigEndian n v).length = n := by
  induction n with
  | zero => rfl
  | succ n ih => simp [Spec.bigEndian, ih]

theorem of_packed (k : Nat) (fs : List (Nat × Nat)) : of (Wire.packed k fs) = some k := by
  simp [of, Wire.packed, bigEndian_length]
theorem of_byte (fs : List (Nat × Nat)) : of (Wire.byte fs) = some 1 := of_packed 1 fs
theorem of_number (k v : Nat) : of (Wire.number k v) = some k := by simp [of, Wire.number, bigEndian_length]
theorem of_hostNumber (b : Bool) (k v : Nat) : of (Wire.hostNumber b k v) = some k := by
  cases b <;> simp [of, Wire.hostNumber, bigEndian_length]
theorem of_raw (b : List U8) : of (Wire.raw b) = some b.length := rfl

theorem of_length (n : Nat) : of (Wire.length n) = length n := by
  have e6 : (2 : Nat) ^ 6 = 64 := rfl
  have e14 : (2 : Nat) ^ 14 = 16384 := rfl
  have e22 : (2 : Nat) ^ 22 = 4194304 := rfl
  have e30 : (2 : Nat) ^ 30 = 1073741824 := rfl
  unfold Wire.length length
  by_cases h : n < 2 ^ 30
  · rw [if_pos h]
    simp only [of, Option.map_some, Spec.length, Spec.lengthWith, bigEndian_length, Spec.lengthExtra, e6, e14, e22]
    rw [if_pos (show n < 1073741824 by omega)]
    by_cases h6 : n < 64
    · rw [if_pos h6, if_pos h6]
    · rw [if_neg h6, if_neg h6]
      by_cases h14 : n < 16384
      · rw [if_pos h14, if_pos h14]
      · rw [if_neg h14, if_neg h14]
        by_cases h22 : n < 4194304
        · rw [if_pos h22, if_pos h22]
        · rw [if_neg h22, if_neg h22]
  · rw [if_neg h, if_neg (by omega), if_neg (by omega), if_neg (by omega), if_neg (by omega)]; rfl

theorem of_varInt (v : VarInt) : of (Wire.varInt v) = compressed v := by
  unfold Wire.varInt compressed
  dsimp only
  split
  · exact of_byte _
  · rfl

theorem of_prefixed (p : Option (List U8)) : of (Wire.prefixed p) = prefixed (of p) := by
  cases p with
  | none => rfl
  | some b => rw [Wire.prefixed, of_join, List.map_cons, of_length]; rfl

theorem of_address (a : Address) : of (Wire.address a) = address a := by
  cases a with
  | nbId n => exact of_varInt n
  | noId => rfl
  | uId a => exact of_number _ _
  | vId a => exact of_number _ _

theorem of_nlsState (s : NlsState) : of (Wire.nlsState s) = some (secured s) := by
  cases s <;> simp [Wire.nlsState, of, Wire.raw, secured]

theorem of_addressee (v : Variant) (a : Addressee) : of (Wire.addressee v a) = addressee a := by
  unfold Wire.addressee addressee
  rw [of_join]
  cases v <;>
  · simp only [List.map_cons, List.map_nil, of_address, of_nlsState, Wire.accessClass, of_byte]
    cases address a.address with
    | none => rfl
    | some n => simp only [sum, Nat.add_zero]; congr 1; omega

theorem of_fileOffset (f : FileOffset) : of (Wire.fileOffset f) = fileOffset f := by
  unfold Wire.fileOffset fileOffset
  rw [of_join]
  simp only [List.map_cons, List.map_nil, of_length, of_raw, List.length_cons, List.length_nil]

theorem of_channelHeader (h : ChannelHeader) : of (Wire.channelHeader h) = some 1 := of_byte _

theorem of_channel (c : Channel) : of (Wire.channel c) = some 3 := by
  unfold Wire.channel; rw [of_join]; simp [of_channelHeader, of_number, sum]

theorem of_subBand (b : SubBand) : of (Wire.subBand b) = some 7 := by
  unfold Wire.subBand; rw [of_join]; simp [of_number, of_raw, sum]

theorem of_subProfile (s : SubProfile) : of (Wire.subProfile s) =
    if s.scanAutomationPeriod.value.toNat ≤ 507904 then some 2 else none := by
  unfold Wire.subProfile; rw [of_join]
  simp only [List.map_cons, List.map_nil, of_raw, of_varInt, compressed]
  split <;> simp [sum]

theorem of_channelStatus (c : ChannelStatus) : of (Wire.channelStatus c) = some 3 := by
  unfold Wire.channelStatus; rw [of_join]; simp [of_packed, of_raw, sum]

theorem sum_append (a b : List (Option Nat)) : sum (a ++ b) = sum [sum a, sum b] := by
  induction a with
  | nil => cases h : sum b <;> simp [sum, h]
  | cons x a ih =>
    cases x with
    | none => rfl
    | some n =>
      simp only [List.cons_append, sum, ih]
      cases sum a with
      | none => rfl
      | some m => cases sum b <;> simp [sum, Nat.add_assoc]

theorem sum_const (k : Nat) (l : List (Option Nat)) (h : ∀ x ∈ l, x = some k) : sum l = some (l.length * k) := by
  induction l with
  | nil => simp [sum]
  | cons x l ih =>
    rw [h x (by simp)]
    simp only [sum, ih fun y hy => h y (by simp [hy]), List.length_cons]
    congr 1
    rw [Nat.add_mul]; omega

theorem sum_none (l : List (Option Nat)) (h : none ∈ l) : sum l = none := by
  induction l with
  | nil => simp at h
  | cons x l ih =>
    cases x with
    | none => rfl
    | some n => simp only [List.mem_cons, reduceCtorEq, false_or] at h; simp only [sum, ih h]

theorem of_accessProfile (p : AccessProfile) : of (Wire.accessProfile p) =
    if ∀ s ∈ p.subProfiles.toList, s.scanAutomationPeriod.value.toNat ≤ 507904 then some 65 else none := by
  unfold Wire.accessProfile
  rw [of_join, List.map_append, List.map_append, sum_append, sum_append]
  simp only [List.map_map]
  have h2 : sum (p.subBands.toList.map (of ∘ Wire.subBand)) = some 56 := by
    rw [sum_const 7]
    · simp
    · intro x hx; obtain ⟨b, -, rfl⟩ := List.mem_map.1 hx; exact of_subBand b
  rw [h2]
  simp only [List.map_cons, List.map_nil, of_channelHeader]
  split
  · next h =>
    have h1 : sum (p.subProfiles.toList.map (of ∘ Wire.subProfile)) = some 8 := by
      rw [sum_const 2]
      · simp
      · intro x hx
        obtain ⟨s, hs, rfl⟩ := List.mem_map.1 hx
        simp only [Function.comp_apply, of_subProfile, if_pos (h s hs)]
    rw [h1]; rfl
  · next h =>
    have h1 : sum (p.subProfiles.toList.map (of ∘ Wire.subProfile)) = none := by
      apply sum_none
      obtain ⟨s, hs⟩ := Classical.not_forall.1 h
      obtain ⟨hs, hn⟩ := Classical.not_imp.1 hs
      exact List.mem_map.2 ⟨s, hs, by simp only [Function.comp_apply, of_subProfile, if_neg hn]⟩
    rw [h1]; rfl

theorem of_string (n : Nat) (s : String) : of (Wire.string n s) = some n := by
  simp only [Wire.string, of, Wire.raw, Option.map_some, List.length_append, List.length_take, List.length_replicate]
  congr 1
  omega

theorem of_file (big : Bool) (f : File) : of (Wire.file big f) = file f := by
  cases f with
  | accessProfile _ p => exact of_accessProfile p
  | uId a => exact of_address a
  | factorySettings f =>
    show of (Wire.factorySettings f) = _
    unfold Wire.factorySettings; rw [of_join]; simp [of_number, of_raw, sum, file]
  | firmwareVersion f =>
    show of (Wire.firmwareVersion f) = _
    unfold Wire.firmwareVersion; rw [of_join]; simp [of_string, of_raw, sum, file]
  | engineeringMode f =>
    show of (Wire.engineeringMode f) = _
    unfold Wire.engineeringMode; rw [of_join]; simp [of_channel, of_raw, sum, file]
  | vId a => exact of_address a
  | phyStatus f =>
    show of (Wire.phyStatus f) = _
    unfold Wire.phyStatus
    rw [of_join, List.map_append, sum_append, List.map_map, sum_const 3 (List.map _ f.channelStatus)]
    · simp [of_number, of_raw, sum, file, Nat.mul_comm]
    · intro x hx; obtain ⟨b, -, rfl⟩ := List.mem_map.1 hx; exact of_channelStatus b
  | dllConfig f => rfl
  | dllStatus f =>
    show of (Wire.dllStatus f) = _
    unfold Wire.dllStatus; rw [of_join]; simp [of_number, of_channelHeader, of_raw, sum, file]
  | nwlSecurityKey f => exact of_hostNumber _ _ _
  | other b => rfl

theorem of_interfaceStatus (v : Variant) (s : InterfaceStatus) :
    of (Wire.interfaceStatus v s) = interfaceStatus s := by
  cases s with
  | host => rfl
  | serial => rfl
  | dash7 s =>
    show of (Wire.dash7InterfaceStatus v s) = _
    unfold Wire.dash7InterfaceStatus
    rw [of_join]
    simp only [List.map_cons, List.map_nil, of_channel, of_raw, of_byte, of_varInt, of_addressee, interfaceStatus,
      List.length_cons, List.length_nil]
    cases compressed s.responseTimeout with
    | none => rfl
    | some a => cases addressee s.addressee <;> simp [sum]; omega
  | other b => rfl

theorem of_interfaceFinalStatus (s : InterfaceFinalStatus) :
    of (Wire.interfaceFinalStatus s) = some (interfaceFinalStatus s) := by cases s <;> rfl

theorem of_interfaceTxStatus (v : Variant) (big : Bool) (s : InterfaceTxStatus) :
    of (Wire.interfaceTxStatus v big s) = interfaceTxStatus s := by
  cases s with
  | dash7 s =>
    show of (Wire.dash7InterfaceTxStatus v big s) = _
    unfold Wire.dash7InterfaceTxStatus
    rw [of_join]
    simp only [List.map_cons, List.map_nil, of_channel, of_raw, of_hostNumber, of_addressee, interfaceTxStatus,
      List.length_cons, List.length_nil]
    cases addressee s.addressee <;> simp [sum]; omega
  | other b => rfl

theorem of_loRaWAN (c : LoRaWANInterfaceConfiguration) : of (Wire.loRaWAN c) = some 3 := by
  unfold Wire.loRaWAN; rw [of_join]; simp [of_byte, of_raw, sum]

theorem of_dash7InterfaceConfiguration (v : Variant) (c : Dash7InterfaceConfiguration) :
    of (Wire.dash7InterfaceConfiguration v c) = sum [some 1, compressed c.dormantSessionTimeout,
      if v = .subiot then some 0 else compressed c.executionDelayTimeout, addressee c.addressee] := by
  unfold Wire.dash7InterfaceConfiguration
  rw [of_join]
  cases v <;>
    simp [Wire.qos, of_byte, of_raw, of_varInt, of_addressee]

theorem of_interfaceConfiguration (v : Variant) (big : Bool) (c : InterfaceConfiguration) :
    of (Wire.interfaceConfiguration v big c) = interfaceConfiguration v c := by
  cases c with
  | host => rfl
  | serial => rfl
  | loRaWanABP c =>
    show of (Wire.join _) = _
    rw [of_join]
    simp only [List.map_cons, List.map_nil, Wire.loRaWANABP, of_join, of_loRaWAN, of_raw, of_hostNumber, sum,
      interfaceConfiguration, List.length_cons, List.length_nil]
    congr 1; omega
  | loRaWanOTAA c =>
    show of (Wire.join _) = _
    rw [of_join]
    simp only [List.map_cons, List.map_nil, Wire.loRaWANOTAA, of_join, of_loRaWAN, of_raw, sum,
      interfaceConfiguration, List.length_cons, List.length_nil]
    congr 1; omega
  | dash7 c =>
    show of (Wire.join _) = _
    rw [of_join]
    simp only [List.map_cons, List.map_nil, of_raw, of_dash7InterfaceConfiguration, interfaceConfiguration,
      List.length_cons, List.length_nil]
    generalize (if v = .subiot then some 0 else compressed c.executionDelayTimeout) = e
    cases compressed c.dormantSessionTimeout with
    | none => rfl
    | some d =>
      cases e with
      | none => rfl
      | some e => cases addressee c.addressee <;> simp [sum]; omega
  | unknown i => rfl

theorem of_indirectInterface (v : Variant) (c : IndirectInterface) :
    of (Wire.indirectInterface v c) = indirectInterface c := by
  cases c with
  | host => rfl
  | serial => rfl
  | dash7 a =>
    show of (Wire.join _) = _
    rw [of_join]
    simp only [List.map_cons, List.map_nil, of_raw, of_addressee, indirectInterface, List.length_cons, List.length_nil]
  | unknown i => rfl

theorem sum_move (n m : Nat) (x : Option Nat) (ps : List (Option Nat)) :
    sum (some n :: x :: some m :: ps) = sum (some (n + m) :: x :: ps) := by
  cases x with
  | none => rfl
  | some k => simp only [sum]; cases sum ps <;> simp; omega

theorem sum_far (n m : Nat) (x y z : Option Nat) (ps : List (Option Nat)) :
    sum (some n :: x :: y :: z :: some m :: ps) = sum (some (n + m) :: x :: y :: z :: ps) := by
  cases x with
  | none => rfl
  | some k =>
    cases y with
    | none => rfl
    | some l =>
      cases z with
      | none => rfl
      | some j => simp only [sum]; cases sum ps <;> simp; omega

theorem of_query (q : Query) : of (Wire.query q) = query q := by
  cases q <;>
  · simp only [Wire.query, query]
    rw [of_join]
    simp only [List.map_cons, List.map_nil, of_byte, of_length, of_raw, of_fileOffset]
    try rw [sum_move]
    try rw [sum_move]
    try rw [sum_far]

theorem of_status (v : Variant) (s : Op.Status) : of (Wire.status v s) = status s := by
  cases s with
  | action s => rfl
  | interface o =>
    show of (Wire.join _) = _
    rw [of_join]
    simp only [List.map_cons, List.map_nil, of_prefixed, of_interfaceStatus, status]
    cases o.interfaceType <;> rfl
  | interfaceFinal o =>
    show of (Wire.join _) = _
    rw [of_join]
    simp only [List.map_cons, List.map_nil, of_prefixed, of_interfaceFinalStatus, status, of_raw, List.length_cons,
      List.length_nil]

theorem of_header (h : ActionHeader) (c : Nat) : of (Wire.header h c) = some 1 := of_byte _
theorem of_action1 (a b : Bool) (c : Nat) : of (Wire.action1 a b c) = some 1 := of_byte _

theorem of_fileId (c : Nat) (o : Op.FileId) : of (Wire.fileId c o) = some 2 := by
  unfold Wire.fileId; rw [of_join]; simp [of_header, of_raw, sum]

theorem of_fileProperties (c : Nat) (o : Op.FileProperties) : of (Wire.fileProperties c o) = some 14 := by
  unfold Wire.fileProperties; rw [of_join]
  simp [of_header, of_raw, sum, Wire.fileHeader, of_join, of_byte, of_number]

theorem of_fileData (big : Bool) (c : Nat) (o : Op.FileData) :
    of (Wire.fileData big c o) = sum [some 1, fileOffset o.offset, prefixed (file o.data)] := by
  unfold Wire.fileData; rw [of_join]; simp [of_header, of_prefixed, of_fileOffset, of_file]

theorem of_actionQuery (c : Nat) (o : Op.ActionQuery) :
    of (Wire.actionQuery c o) = sum [some 1, query o.query] := by
  unfold Wire.actionQuery; rw [of_join]; simp [of_header, of_query]

theorem of_action (v : Variant) (big : Bool) (a : Action) (h : a.isTx = false) :
    of (Wire.action v big a) = action v a := by
  cases a with
  | nop | extension => exact of_header _ _
  | chunk | logic => exact of_byte _
  | readFileData o =>
    simp only [Wire.action, action]; rw [of_join]; simp [of_header, of_fileOffset, of_length]
  | readFileProperties | existFile | deleteFile | restoreFile | flushFile | executeFile => exact of_fileId _ _
  | writeFileData | writeFileDataFlush | returnFileData => exact of_fileData _ _ _
  | writeFileProperties | createNewFile | returnFileProperties => exact of_fileProperties _ _
  | actionQuery | breakQuery | verifyChecksum => exact of_actionQuery _ _
  | permissionRequest o =>
    simp only [Wire.action, action]; rw [of_join]
    cases o.permission
    simp [of_header, of_raw, Wire.permission, sum]
  | copyFile o => simp only [Wire.action, action]; rw [of_join]; simp [of_header, of_raw, sum]
  | status o => simp only [Wire.action, action]; rw [of_join]; simp [of_byte, of_status]
  | responseTag o | requestTag o =>
    simp only [Wire.action, action]; rw [of_join]; simp [of_action1, of_raw, sum]
  | txStatus o => simp [Action.isTx] at h
  | forward o =>
    simp only [Wire.action, action]; rw [of_join]; simp [of_action1, of_interfaceConfiguration]
  | indirectForward o =>
    simp only [Wire.action, action]; rw [of_join]
    cases o.configuration <;> simp [of_action1, of_indirectInterface, Wire.optional, of_raw, sum]

/-! ## Rows of bits -/

/-- The number of bits. -/
def ofRow (o : Option (List (Nat × Nat))) : Option Nat := o.map Wire.width

theorem width_append (a b : List (Nat × Nat)) : Wire.width (a ++ b) = Wire.width a + Wire.width b := by
  induction a with
  | nil => simp [Wire.width]
  | cons x a ih => simp only [List.cons_append, Wire.width, ih]; omega

theorem ofRow_rows (ps : List (Option (List (Nat × Nat)))) : ofRow (Wire.rows ps) = sum (ps.map ofRow) := by
  induction ps with
  | nil => rfl
  | cons p ps ih =>
    cases p with
    | none => rfl
    | some b =>
      simp only [Wire.rows, List.map_cons]
      cases hj : Wire.rows ps with
      | none => rw [hj] at ih; simp only [ofRow, Option.map_none] at ih ⊢; simp only [Option.map_some, sum, ← ih]
      | some bs =>
        rw [hj] at ih
        simp only [ofRow, Option.map_some] at ih ⊢
        simp only [sum, ← ih, width_append]

theorem ofRow_octets (p : Option (List U8)) : ofRow (Wire.octets p) = eight (of p) := by
  cases p with
  | none => rfl
  | some b =>
    show some (Wire.width _) = some (8 * b.length)
    congr 1
    induction b with
    | nil => rfl
    | cons x b ih => simp only [List.map_cons, Wire.width, ih, List.length_cons]; omega

theorem of_filled (r : Option (List (Nat × Nat))) : of (Wire.filled r) = bytes (ofRow r) := by
  cases r with
  | none => rfl
  | some fs => exact of_packed _ _

theorem ofRow_action (v : Variant) (big : Bool) (a : Action) : ofRow (Wire.actionRow v big a) = actionBits v a := by
  cases ht : a.isTx with
  | true =>
    cases a <;> simp only [Action.isTx, reduceCtorEq] at ht
    next o =>
    simp only [Wire.actionRow, actionBits, action, Action.isTx]
    rw [ofRow_rows]
    simp only [List.map_cons, List.map_nil, ofRow_octets, of_raw, of_prefixed, of_interfaceTxStatus]
    cases prefixed (interfaceTxStatus o.status.status) with
    | none => rfl
    | some n => simp [ofRow, Wire.width, sum, eight]; omega
  | false =>
    have e : Wire.actionRow v big a = Wire.octets (Wire.action v big a) := by
      cases a <;> first | rfl | (simp [Action.isTx] at ht)
    rw [e, ofRow_octets, of_action v big a ht]
    simp [eight, actionBits, ht]

theorem ofRow_command (v : Variant) (big : Bool) (c : Command) :
    ofRow (Wire.commandRow v big c) = commandBits v c := by
  unfold Wire.commandRow commandBits
  rw [ofRow_rows, List.map_map]
  congr 1
  exact List.map_congr_left fun a _ => ofRow_action v big a

theorem ofRow_optional (t : Option VarInt) :
    ofRow (Wire.optionalRow (fun t => Wire.octets (Wire.varInt t)) t) = eight (optional t) := by
  cases t with
  | none => rfl
  | some t => show ofRow (Wire.octets _) = _; rw [ofRow_octets, of_varInt]; rfl

theorem ofRow_transport (v : Variant) (big : Bool) (f : Trans.Frame) :
    ofRow (Wire.transFrame v big f) = transport v f := by
  unfold Wire.transFrame Wire.transHeader transport
  rw [ofRow_rows]
  simp only [List.map_cons, List.map_nil, ofRow_rows, ofRow_command, ofRow_optional, ofRow_octets, of_raw]
  have h1 : ofRow (Wire.optionalRow (fun l => Wire.octets (Wire.raw [l])) f.header.targetRxLevelI) =
      some (if f.header.targetRxLevelI.isSome then 8 else 0) := by cases f.header.targetRxLevelI <;> rfl
  have h2 : ofRow (Wire.optionalRow (fun t : Trans.AckTemplate =>
      Wire.octets (Wire.raw [t.transactionIdStart, t.transactionIdStop])) f.header.ackTemplate) =
      some (if f.header.ackTemplate.isSome then 16 else 0) := by cases f.header.ackTemplate <;> rfl
  rw [h1, h2]
  have h3 : ofRow (some (Wire.transControl f.header.control)) = some 7 := rfl
  rw [h3]
  generalize (if f.header.targetRxLevelI.isSome then 8 else 0) = x
  generalize (if f.header.ackTemplate.isSome then 16 else 0) = y
  cases eight (optional f.header.listenTimeout) with
  | none => rfl
  | some a =>
    cases eight (optional f.header.executionDelayTimeout) with
    | none => rfl
    | some b =>
      cases eight (optional f.header.congestionTimeout) with
      | none => rfl
      | some c =>
        cases commandBits v f.command with
        | none => rfl
        | some d => simp [sum, eight]; omega

theorem ofRow_network (v : Variant) (big : Bool) (f : Net.Frame) :
    ofRow (Wire.netFrame v big f) = network v f := by
  unfold Wire.netFrame Wire.netHeader network
  rw [ofRow_rows]
  simp only [List.map_cons, List.map_nil, ofRow_rows, ofRow_transport, ofRow_octets, of_address, Wire.accessClass,
    of_byte]
  have h1 : ofRow (Wire.optionalRow (fun h => some (Wire.hopping h)) f.header.hoppingControl) =
      some (if f.header.hoppingControl.isSome then 8 else 0) := by cases f.header.hoppingControl <;> rfl
  have h3 : ofRow (some (Wire.netControl v f.header.control)) = some (if v = .wizzilab then 8 else 9) := by
    cases v <;> rfl
  rw [h1, h3]
  generalize (if f.header.hoppingControl.isSome then 8 else 0) = x
  cases eight (address f.header.originAccessAddress) with
  | none => rfl
  | some a =>
    cases transport v f.frame with
    | none => rfl
    | some b => cases v <;> (simp [sum, eight]; omega)

theorem ofRow_foreground (v : Variant) (big : Bool) (f : ForegroundFrame) :
    ofRow (Wire.foregroundFrame v big f) = foreground v f := by
  unfold Wire.foregroundFrame Wire.foregroundHeader foreground
  rw [ofRow_rows]
  simp only [List.map_cons, List.map_nil, ofRow_rows, ofRow_network, ofRow_octets, of_address, of_raw, of_length,
    of_hostNumber]
  have h3 : ofRow (some [(2, Wire.addressType f.header.control.addressType),
      (6, f.header.control.eirpIndex.toNat)]) = some 8 := rfl
  rw [h3]
  cases eight (length f.header.length.val.toNat) with
  | none => rfl
  | some c =>
    cases eight (address f.header.targetAddress) with
    | none => rfl
    | some a =>
      cases network v f.frame with
      | none => rfl
      | some b => simp [sum, eight]; omega

theorem of_result {r : Except Err (List U8)} {o : Option (List U8)} {n : Option Nat} (h : r = Wire.result o)
    (hn : of o = n) : r.map List.length = result n := by
  subst h hn
  cases o <;> rfl

end Size

/-- **C85.** The outcome of encoding an action: so many bytes, or refused. -/
theorem C85_action (cfg : Cfg) (a : Action) :
    (a.toBytes cfg).map List.length = Size.result (Size.action cfg.variant a) := by
  cases h : a.isTx with
  | false => exact Size.of_result (C51_action_layout cfg a h) (Size.of_action _ _ a h)
  | true =>
    cases a <;> simp only [Action.isTx, reduceCtorEq] at h
    next o =>
    refine Size.of_result (C51_tx_layout cfg o) ?_
    have hj := Size.of_join [Wire.raw [o.status.interfaceId],
      Wire.prefixed (Wire.interfaceTxStatus cfg.variant cfg.bigEndianHost o.status.status)]
    simp only [List.map_cons, List.map_nil, Size.of_raw, Size.of_prefixed, Size.of_interfaceTxStatus] at hj
    unfold Wire.txStatus
    simp only [Size.action]
    revert hj
    generalize Wire.join _ = w
    cases w with
    | none =>
      intro hj
      cases hp : Size.prefixed (Size.interfaceTxStatus o.status.status) with
      | none => rfl
      | some n => rw [hp] at hj; simp [Size.of, Size.sum] at hj
    | some b =>
      intro hj
      cases hp : Size.prefixed (Size.interfaceTxStatus o.status.status) with
      | none => rw [hp] at hj; simp [Size.of, Size.sum] at hj
      | some n =>
        rw [hp] at hj
        simp only [Size.of, Size.sum, Option.map_some, Option.some.injEq, List.length_cons, List.length_nil,
          Size.bigEndian_length] at hj ⊢
        omega

/-- **C85** for commands. -/
theorem C85_command (cfg : Cfg) (c : Command) :
    (c.toBytes cfg).map List.length = Size.result (Size.bytes (Size.commandBits cfg.variant c)) :=
  Size.of_result (C56_command cfg c) (by rw [Size.of_filled, Size.ofRow_command])

/-- **C85** for transport frames. -/
theorem C85_transport (cfg : Cfg) (f : Trans.Frame) :
    (f.toBytes cfg).map List.length = Size.result (Size.bytes (Size.transport cfg.variant f)) :=
  Size.of_result (C56_transport cfg f) (by rw [Size.of_filled, Size.ofRow_transport])

/-- **C85** for network frames. -/
theorem C85_network (cfg : Cfg) (f : Net.Frame) :
    (f.toBytes cfg).map List.length = Size.result (Size.bytes (Size.network cfg.variant f)) :=
  Size.of_result (C56_network cfg f) (by rw [Size.of_filled, Size.ofRow_network])

/-- **C85** for foreground frames. -/
theorem C85_foreground (cfg : Cfg) (f : ForegroundFrame) :
    (f.toBytes cfg).map List.length = Size.result (Size.bytes (Size.foreground cfg.variant f)) :=
  Size.of_result (C56_foreground cfg f) (by rw [Size.of_filled, Size.ofRow_foreground])

/-- **C85**, without TX statuses: a command is as long as its actions together. -/
theorem C85_command_sum (cfg : Cfg) (c : Command) (h : ∀ a ∈ c.actions, a.isTx = false) :
    (c.toBytes cfg).map List.length = Size.result (Size.sum (c.actions.map (Size.action cfg.variant))) := by
  refine Size.of_result (C51_command_layout cfg c h) ?_
  unfold Wire.command
  rw [Size.of_join, List.map_map]
  congr 1
  exact List.map_congr_left fun a ha => Size.of_action _ _ a (h a ha)

theorem Size.action_pos {v : Variant} {a : Action} {n : Nat} (h : Size.action v a = some n) : 0 < n := by
  have hs : ∀ {k : Nat} {ps : List (Option Nat)} {n : Nat}, Size.sum (some k :: ps) = some n → k ≤ n := by
    intro k ps n h
    simp only [Size.sum] at h
    split at h
    · next m _ => simp only [Option.some.injEq] at h; omega
    · simp at h
  cases a <;> simp only [Size.action] at h <;>
    first
    | (have := hs h; omega)
    | (simp only [Option.some.injEq] at h; omega)
    | (split at h
       · have := hs h; omega
       · simp only [Option.some.injEq] at h; omega)

/-- **C85**: every action takes a byte or more, also where TX statuses stand close together. -/
theorem C85_at_least (cfg : Cfg) (c : Command) (bs : List U8) (h : c.toBytes cfg = .ok bs) :
    c.actions.length ≤ bs.length := by
  have hc := C85_command cfg c
  rw [h] at hc
  have hb : ∀ (as : List Action) (n : Nat), Size.sum (as.map (Size.actionBits cfg.variant)) = some n →
      8 * as.length ≤ n := by
    intro as
    induction as with
    | nil => intro n _; simp
    | cons a as ih =>
      intro n hn
      simp only [List.map_cons] at hn
      cases ha : Size.action cfg.variant a with
      | none => simp [Size.actionBits, ha, Size.sum] at hn
      | some k =>
        have hk := Size.action_pos ha
        have hk3 : a.isTx = true → 3 ≤ k := by
          intro ht
          cases a <;> simp only [Action.isTx, reduceCtorEq] at ht
          simp only [Size.action, Size.sum] at ha
          split at ha
          · simp only [Option.some.injEq] at ha; omega
          · simp at ha
        simp only [Size.actionBits, ha, Option.map_some, Size.sum] at hn
        split at hn
        · next m hm =>
          have := ih m hm
          simp only [Option.some.injEq] at hn
          simp only [List.length_cons]
          split at hn
          · next ht => have := hk3 ht; omega
          · omega
        · simp at hn
  cases hs : Size.commandBits cfg.variant c with
  | none => rw [hs] at hc; simp [Size.bytes, Size.result, Except.map] at hc
  | some n =>
    rw [hs] at hc
    have := hb c.actions n hs
    simp only [Size.bytes, Option.map_some, Size.result, Except.map, Except.ok.injEq] at hc
    omega

/-- **C85**: writing or returning plain data takes four to ten bytes more than the data. -/
theorem C85_overhead (cfg : Cfg) (o : Op.FileData) (b bs : List U8) (hd : o.data = .other b)
    (hb : b.length < 2 ^ 30) (a : Action) (ha : a = .writeFileData o ∨ a = .writeFileDataFlush o ∨ a = .returnFileData o)
    (h : a.toBytes cfg = .ok bs) : b.length + 4 ≤ bs.length ∧ bs.length ≤ b.length + 10 := by
  have e30 : (2 : Nat) ^ 30 = 1073741824 := rfl
  have hl : ∀ n k, Size.length n = some k → 1 ≤ k ∧ k ≤ 4 := by
    intro n k h
    unfold Size.length at h
    split at h
    · simp at h; omega
    · split at h
      · simp at h; omega
      · split at h
        · simp at h; omega
        · split at h <;> simp at h; omega
  have hc := C85_action cfg a
  rw [h] at hc
  have hs : Size.action cfg.variant a = Size.sum [some 1, Size.fileOffset o.offset, Size.prefixed (some b.length)] := by
    rcases ha with rfl | rfl | rfl <;> simp [Size.action, hd, Size.file]
  rw [hs] at hc
  simp only [Size.prefixed, Size.fileOffset] at hc
  cases h1 : Size.length o.offset.offset.val.toNat with
  | none => rw [h1] at hc; simp [Size.sum, Size.result, Except.map] at hc
  | some k =>
    cases h2 : Size.length (b.length % 4294967296) with
    | none => rw [h1, h2] at hc; simp [Size.sum, Size.result, Except.map] at hc
    | some m =>
      rw [h1, h2] at hc
      simp only [Size.sum, Size.result, Except.map, Except.ok.injEq] at hc
      have := hl _ _ h1
      have := hl _ _ h2
      omega

/-- The sizes of the samples, each a number; a TX status ends two bits short. -/
example : Sample.command.actions.map (Size.action .spec) =
      [some 2, some 6, some 7, some 9, some 28, some 20, some 17] ∧
    Size.bytes (Size.commandBits .spec Sample.command) = some 89 ∧
    Size.action .wizzilab Sample.txStatus = some 4 ∧
    Size.bytes (Size.commandBits .wizzilab ⟨[Sample.txStatus, Sample.txStatus, Sample.txStatus, Sample.txStatus]⟩) =
      some 15 := by decide +kernel
/-- And of a frame, around a request. -/
example : Size.bytes (Size.foreground .spec (Sample.foreground 25 ⟨[Sample.tag]⟩)) = some 27 ∧
    Size.foreground .spec (Sample.foreground 25 ⟨[Sample.tag]⟩) = some 216 := by decide +kernel
/-- Refused: an offset of 2 ^ 30. -/
example : Size.action .spec (.readFileData ⟨⟨true, false⟩, ⟨1⟩, ⟨0x41, ⟨2 ^ 30⟩⟩, ⟨300⟩⟩) = none ∧
    (Action.readFileData ⟨⟨true, false⟩, ⟨1⟩, ⟨0x41, ⟨2 ^ 30⟩⟩, ⟨300⟩⟩).toBytes spec =
      .error (.fault .invalidParam) := by decide +kernel
/-- The bounds on the overhead are reached. -/
example : Size.action .spec (.writeFileData ⟨⟨true, false⟩, ⟨4⟩, ⟨0x41, ⟨0⟩⟩, .other [1, 2, 3]⟩) = some (3 + 4) := by
  decide +kernel
example (b : List U8) (h : b.length = 4194304) :
    Size.action .spec (.writeFileData ⟨⟨true, false⟩, ⟨4⟩, ⟨0x41, ⟨4194304⟩⟩, .other b⟩) = some (b.length + 10) := by
  simp only [Size.action, Size.file, h]
  decide +kernel

end Dash7

#print axioms Dash7.C85_action
#print axioms Dash7.C85_command
#print axioms Dash7.C85_transport
#print axioms Dash7.C85_network
#print axioms Dash7.C85_foreground
#print axioms Dash7.C85_command_sum
#print axioms Dash7.C85_at_least
#print axioms Dash7.C85_overhead
