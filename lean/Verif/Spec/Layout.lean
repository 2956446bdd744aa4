import Verif.Spec.Wire
import Verif.Model.Command

/-!
# The wire format of every type, on bytes

A second, independent description of what the encoders put out: every type is a sequence of bytes, written
down with arithmetic on the field values, big-endian numbers and tables of codes.  It uses no reader and
no writer of the model, only its data types.  `none` stands for a value the encoder refuses.
-/

namespace Dash7.Wire

/-! ## Building blocks -/

/-- Width of a row of bit fields. -/
def width : List (Nat × Nat) → Nat
  | [] => 0
  | (w, _) :: fs => w + width fs

/-- A row of bit fields `(width, value)`, most significant first, as one number; a value too large
for its field is cut down to it. -/
def bits : List (Nat × Nat) → Nat
  | [] => 0
  | (w, v) :: fs => v % 2 ^ w * 2 ^ width fs + bits fs

/-- A row of bit fields making up `k` bytes. -/
def packed (k : Nat) (fs : List (Nat × Nat)) : Option (List U8) := some (Spec.bigEndian k (bits fs))

/-- A row of bit fields making up one byte. -/
def byte (fs : List (Nat × Nat)) : Option (List U8) := packed 1 fs

/-- A number in `k` bytes, big-endian. -/
def number (k v : Nat) : Option (List U8) := some (Spec.bigEndian k v)

/-- A number in `k` bytes in the byte order of the host. -/
def hostNumber (big : Bool) (k v : Nat) : Option (List U8) :=
  some (if big then Spec.bigEndian k v else (Spec.bigEndian k v).reverse)

/-- What the encoder makes of it: the bytes, or the error for a parameter out of range. -/
def result : Option (List U8) → Except Err (List U8)
  | some bytes => .ok bytes
  | none => .error (.fault .invalidParam)

/-- Bytes as they are. -/
def raw (bs : List U8) : Option (List U8) := some bs

/-- One part after the other; refused if any part is. -/
def join : List (Option (List U8)) → Option (List U8)
  | [] => some []
  | none :: _ => none
  | some b :: ps =>
    match join ps with
    | some bs => some (b ++ bs)
    | none => none

/-- A length operand: refused from 2^30 on. -/
def length (n : Nat) : Option (List U8) := if n < 2 ^ 30 then some (Spec.length n) else none

/-- A payload preceded by its length. The length is counted in 32 bits. -/
def prefixed : Option (List U8) → Option (List U8)
  | some bs => join [length (bs.length % 2 ^ 32), some bs]
  | none => none

/-- The smallest exponent for which the value is at most 31 times a power of 4. -/
def exponent (v : Nat) : Nat :=
  if v ≤ 31 then 0 else if v ≤ 124 then 1 else if v ≤ 496 then 2 else if v ≤ 1984 then 3
  else if v ≤ 7936 then 4 else if v ≤ 31744 then 5 else if v ≤ 126976 then 6 else 7

/-- A compressed integer: refused above 507904. -/
def varInt (v : VarInt) : Option (List U8) :=
  let n := v.value.toNat
  let unit := 4 ^ exponent n
  if n ≤ 507904 then
    byte [(3, exponent n), (5, if v.ceil then (n + unit - 1) / unit else n / unit)]
  else none

/-! ## Physical layer -/

/-- Codes: channel band. -/
def channelBand : ChannelBand → Nat
  | .rfu0 => 0 | .rfu1 => 1 | .band433 => 2 | .band868 => 3 | .band915 => 4
/-- Codes: channel class. -/
def channelClass : ChannelClass → Nat
  | .loRate => 0 | .lora => 1 | .normalRate => 2 | .hiRate => 3
/-- Codes: channel coding. -/
def channelCoding : ChannelCoding → Nat
  | .pn9 => 0 | .rfu => 1 | .fecPn9 => 2 | .cw => 3
/-- Codes: bandwidth. -/
def bandwidth : Bandwidth → Nat
  | .khz200 => 0 | .khz25 => 1

/-- `0bbbccdd`: band, class, coding. -/
def channelHeader (h : ChannelHeader) : Option (List U8) :=
  byte [(1, 0), (3, channelBand h.band), (2, channelClass h.cls), (2, channelCoding h.coding)]

/-- Channel header, index. -/
def channel (c : Channel) : Option (List U8) := join [channelHeader c.header, number 2 c.index.toNat]

/-- `bbbwwiii iiiiiiii`, noise floor. -/
def channelStatus (c : ChannelStatus) : Option (List U8) :=
  join [packed 2 [(3, channelBand c.identifier.band), (2, bandwidth c.identifier.bandwidth),
      (11, c.identifier.index.toNat)],
    raw [c.noiseFloor]]

/-- Bytes: sub band. -/
def subBand (b : SubBand) : Option (List U8) :=
  join [number 2 b.indexStart.toNat, number 2 b.indexEnd.toNat, raw [b.eirp, b.cca, b.duty]]

/-! ## Link and network layer -/

/-- Bytes: sub profile. -/
def subProfile (s : SubProfile) : Option (List U8) :=
  join [raw [s.subbandBitmap], varInt s.scanAutomationPeriod]

/-- `ssssmmmm`: specifier, mask. -/
def accessClass (a : AccessClass) : Option (List U8) :=
  byte [(4, a.specifier.toNat), (4, a.mask.toNat)]

/-- Channel header, four sub-profiles, eight sub-bands. -/
def accessProfile (a : AccessProfile) : Option (List U8) :=
  join ([channelHeader a.channelHeader] ++ a.subProfiles.toList.map subProfile ++
    a.subBands.toList.map subBand)

/-- Codes: group condition. -/
def groupCondition : GroupCondition → Nat
  | .any => 0 | .notEqual => 1 | .equal => 2 | .greaterThan => 3
/-- Codes: address type. -/
def addressType : AddressType → Nat
  | .nbId => 0 | .noId => 1 | .uId => 2 | .vId => 3
/-- Codes: nls method. -/
def nlsMethod : NlsMethod → Nat
  | .none => 0 | .aesCtr => 1 | .aesCbcMac128 => 2 | .aesCbcMac64 => 3 | .aesCbcMac32 => 4
  | .aesCcm128 => 5 | .aesCcm64 => 6 | .aesCcm32 => 7

/-- The five bytes of a security header, if there is one. -/
def nlsState : NlsState → Option (List U8)
  | .none => raw []
  | .aesCtr b | .aesCbcMac128 b | .aesCbcMac64 b | .aesCbcMac32 b | .aesCcm128 b | .aesCcm64 b
  | .aesCcm32 b => raw b.toList

/-- Bytes: address. -/
def address : Address → Option (List U8)
  | .nbId n => varInt n
  | .noId => raw []
  | .uId a => number 8 a.toNat
  | .vId a => number 2 a.toNat

/-- `00aammmm`, or `ggaavmmm` in the wizzilab build: group condition, address type, use VID, security
method; then access class, address and security state. -/
def addressee (v : Variant) (a : Addressee) : Option (List U8) :=
  join [
    match v with
    | .wizzilab => byte [(2, groupCondition a.groupCondition), (2, addressType a.addressType),
        (1, a.useVid.toNat), (3, nlsMethod a.nlsMethod)]
    | _ => byte [(2, 0), (2, addressType a.addressType), (4, nlsMethod a.nlsMethod)],
    accessClass a.accessClass, address a.address, nlsState a.nlsState]

/-! ## Files -/

/-- Bytes: file offset. -/
def fileOffset (f : FileOffset) : Option (List U8) :=
  join [raw [f.fileId], length f.offset.val.toNat]

/-- Codes: storage class. -/
def storageClass : Data.StorageClass → Nat
  | .transient => 0 | .volatile => 1 | .restorable => 2 | .permanent => 3
/-- Codes: action condition. -/
def actionCondition : Data.ActionCondition → Nat
  | .list => 0 | .read => 1 | .write => 2 | .writeFlush => 3

/-- `exrwxrwx` (encrypted, executable, user, guest), `eccc00ss` (enabled, condition, storage class),
two file ids, size and allocated size. -/
def fileHeader (h : Data.FileHeader) : Option (List U8) :=
  let p := h.permissions
  join [
    byte [(1, p.encrypted.toNat), (1, p.executable.toNat),
      (1, p.user.read.toNat), (1, p.user.write.toNat), (1, p.user.executable.toNat),
      (1, p.guest.read.toNat), (1, p.guest.write.toNat), (1, p.guest.executable.toNat)],
    byte [(1, h.properties.enabled.toNat), (3, actionCondition h.properties.condition), (2, 0),
      (2, storageClass h.properties.storageClass)],
    raw [h.alpCommandFileId, h.interfaceFileId],
    number 4 h.fileSize.toNat, number 4 h.allocatedSize.toNat]

/-- A string in `n` bytes of UTF-8, cut off or filled up with zeros. -/
def string (n : Nat) (s : String) : Option (List U8) :=
  let b := s.toUTF8.data.toList.map UInt8.toBitVec
  raw (b.take n ++ List.replicate (n - b.length) 0)

/-- Bytes: dll config. -/
def dllConfig (d : DllConfig) : Option (List U8) :=
  raw [d.ac, 0, 0, d.lqFilter, d.nfCtrl, d.rxNfMethodParameter, d.txNfMethodParameter]

/-- Bytes: dll status. -/
def dllStatus (d : DllStatus) : Option (List U8) :=
  join [raw [d.lastRxPacketLevel, d.lastRxPacketLinkBudget, d.noiseFloor], channelHeader d.channelHeader,
    number 2 d.channelIndex.toNat, number 2 d.scanTimeoutRatio.toNat, number 4 d.scanCount.toNat,
    number 4 d.scanTimeoutCount.toNat]

/-- Codes: engineering mode method. -/
def engineeringModeMethod : EngineeringModeMethod → U8
  | .off => 0 | .contTx => 1 | .transientTx => 2 | .perRx => 3 | .perTx => 4

/-- Bytes: engineering mode. -/
def engineeringMode (d : EngineeringMode) : Option (List U8) :=
  join [raw [engineeringModeMethod d.mode, d.flags, d.timeout], channel d.channel, raw [d.eirp]]

/-- Bytes: factory settings. -/
def factorySettings (f : FactorySettings) : Option (List U8) :=
  join [raw [f.gain], number 4 f.rxBwLowRate.toNat, number 4 f.rxBwNormalRate.toNat,
    number 4 f.rxBwHighRate.toNat, number 4 f.bitrateLoRate.toNat, number 4 f.fdevLoRate.toNat,
    number 4 f.bitrateNormalRate.toNat, number 4 f.fdevNormalRate.toNat,
    number 4 f.bitrateHiRate.toNat, number 4 f.fdevHiRate.toNat,
    raw [f.preambleSizeLoRate, f.preambleSizeNormalRate, f.preambleSizeHiRate,
      f.preambleDetectorSizeLoRate, f.preambleDetectorSizeNormalRate,
      f.preambleDetectorSizeHiRate, f.preambleTolLoRate, f.preambleTolNormalRate,
      f.preambleTolHiRate, f.rssiSmoothing, f.rssiOffset],
    number 4 f.loraBw.toNat, raw [f.loraSf, f.gaussian], number 2 f.paramp.toNat]

/-- Bytes: firmware version. -/
def firmwareVersion (f : FirmwareVersion) : Option (List U8) :=
  join [raw [f.major, f.minor], string 6 f.applicationName, string 7 f.gitSha1]

/-- Bytes: phy status. -/
def phyStatus (p : PhyStatus) : Option (List U8) :=
  join ([number 4 p.upTime.toNat, number 4 p.rxTime.toNat, number 4 p.txTime.toNat,
    number 2 p.txDutyCycle.toNat, raw [p.channelStatusListLength]] ++
    p.channelStatus.map channelStatus)

/-- Bytes: security key. -/
def securityKey (big : Bool) (s : SecurityKey) : Option (List U8) := hostNumber big 16 s.key.toNat

/-- Bytes: file. -/
def file (big : Bool) : File → Option (List U8)
  | .accessProfile _ p => accessProfile p
  | .uId a => address a
  | .factorySettings f => factorySettings f
  | .firmwareVersion f => firmwareVersion f
  | .engineeringMode f => engineeringMode f
  | .vId a => address a
  | .phyStatus f => phyStatus f
  | .dllConfig f => dllConfig f
  | .dllStatus f => dllStatus f
  | .nwlSecurityKey f => securityKey big f
  | .other b => raw b

/-! ## Interfaces -/

/-- Interface id; an unknown interface has none. -/
def interfaceType : InterfaceType → Option (List U8)
  | .host => raw [0x00] | .serial => raw [0x01] | .loRaWanABP => raw [0x02]
  | .loRaWanOTAA => raw [0x03] | .dash7 => raw [0xD7] | .unknown => raw []

/-- Codes: response mode. -/
def responseMode : ResponseMode → Nat
  | .no => 0 | .all => 1 | .any => 2 | .noRepeat => 4 | .onError => 5 | .preferred => 6
/-- Codes: retry mode. -/
def retryMode : RetryMode → Nat
  | .no => 0 | .oneshotRetry => 1 | .fifoFast => 2 | .fifoSlow => 3 | .singleFast => 4
  | .singleSlow => 5 | .oneshotSticky => 6 | .rfu => 7

/-- `srtttmmm`: stop on error, record, retry mode, response mode. -/
def qos (q : QoS) : Option (List U8) :=
  byte [(1, q.stopOnError.toNat), (1, q.record.toNat), (3, retryMode q.retryMode),
    (3, responseMode q.responseMode)]

/-- The fifth byte is `nmru0000`: security, missed, retry, unicast. -/
def dash7InterfaceStatus (v : Variant) (s : Dash7InterfaceStatus) : Option (List U8) :=
  join [channel s.channel, raw [s.rxLevel, s.linkBudget, s.targetRxLevel],
    byte [(1, s.nls.toNat), (1, s.missed.toNat), (1, s.retry.toNat), (1, s.unicast.toNat), (4, 0)],
    raw [s.fifoToken, s.sequenceNumber], varInt s.responseTimeout, addressee v s.addressee]

/-- Bytes: interface status. -/
def interfaceStatus (v : Variant) : InterfaceStatus → Option (List U8)
  | .host => raw []
  | .serial => raw []
  | .dash7 s => dash7InterfaceStatus v s
  | .other b => raw b

/-- Bytes: interface final status. -/
def interfaceFinalStatus : InterfaceFinalStatus → Option (List U8)
  | .dash7 c => raw [c.code]
  | .other b => raw b

/-- Bytes: dash7 interface tx status. -/
def dash7InterfaceTxStatus (v : Variant) (big : Bool) (s : Dash7InterfaceTxStatus) : Option (List U8) :=
  join [channel s.channel, raw [s.targetRxLevel, s.error.code, 0, 0, 0], hostNumber big 4 s.lts.toNat,
    addressee v s.addressee]

/-- Bytes: interface tx status. -/
def interfaceTxStatus (v : Variant) (big : Bool) : InterfaceTxStatus → Option (List U8)
  | .dash7 s => dash7InterfaceTxStatus v big s
  | .other b => raw b

/-- The execution delay is left out in the sub-iot build. -/
def dash7InterfaceConfiguration (v : Variant) (c : Dash7InterfaceConfiguration) : Option (List U8) :=
  join [qos c.qos, varInt c.dormantSessionTimeout,
    match v with
    | .subiot => raw []
    | _ => varInt c.executionDelayTimeout,
    addressee v c.addressee]

/-- `00000ar0` (adaptive data rate, request ack), port, data rate. -/
def loRaWAN (c : LoRaWANInterfaceConfiguration) : Option (List U8) :=
  join [byte [(5, 0), (1, c.adrEnabled.toNat), (1, c.requestAck.toNat), (1, 0)],
    raw [c.applicationPort, c.dataRate]]

/-- Bytes: lo ra w a n o t a a. -/
def loRaWANOTAA (c : LoRaWANOTAAInterfaceConfiguration) : Option (List U8) :=
  join [loRaWAN c.base, raw c.deviceEui, raw c.appEui, raw c.appKey]

/-- Bytes: lo ra w a n a b p. -/
def loRaWANABP (big : Bool) (c : LoRaWANABPInterfaceConfiguration) : Option (List U8) :=
  join [loRaWAN c.base, raw c.networkSessionKey, raw c.appSessionKey,
    hostNumber big 4 c.deviceAddress.toNat, hostNumber big 4 c.networkId.toNat]

/-- Bytes: interface configuration. -/
def interfaceConfiguration (v : Variant) (big : Bool) : InterfaceConfiguration → Option (List U8)
  | .host => raw [0x00]
  | .serial => raw [0x01]
  | .loRaWanABP c => join [raw [0x02], loRaWANABP big c]
  | .loRaWanOTAA c => join [raw [0x03], loRaWANOTAA c]
  | .dash7 c => join [raw [0xD7], dash7InterfaceConfiguration v c]
  | .unknown i => raw [i]

/-- Bytes: indirect interface. -/
def indirectInterface (v : Variant) : IndirectInterface → Option (List U8)
  | .host => raw [0x00]
  | .serial => raw [0x01]
  | .dash7 a => join [raw [0xD7], addressee v a]
  | .unknown i => raw [i]

/-! ## Queries -/

/-- Codes: arithmetic comparison. -/
def arithmeticComparison : ArithmeticComparisonType → Nat
  | .inequal => 0 | .equal => 1 | .lessThan => 2 | .lessThanOrEqual => 3 | .greaterThan => 4
  | .greaterThanOrEqual => 5
/-- Codes: range comparison. -/
def rangeComparison : RangeComparisonType → Nat
  | .notInRange => 0 | .inRange => 1

/-- First byte `tttmsccc`: type, mask present, signed, comparison. -/
def query : Query → Option (List U8)
  | .nonVoid q => join [byte [(3, 0), (5, 0)], length q.length.val.toNat, fileOffset q.file]
  | .comparisonWithZero q =>
    join [byte [(3, 1), (1, q.maskPresent.toNat), (1, q.params.signed.toNat),
        (3, arithmeticComparison q.params.comparisonType)],
      length q.length.val.toNat, raw q.mask, fileOffset q.file]
  | .comparisonWithValue q =>
    join [byte [(3, 2), (1, q.maskPresent.toNat), (1, q.params.signed.toNat),
        (3, arithmeticComparison q.params.comparisonType)],
      length q.length.val.toNat, raw q.mask, raw q.value, fileOffset q.file]
  | .comparisonWithOtherFile q =>
    join [byte [(3, 3), (1, q.maskPresent.toNat), (1, q.params.signed.toNat),
        (3, arithmeticComparison q.params.comparisonType)],
      length q.length.val.toNat, raw q.mask, fileOffset q.file1, fileOffset q.file2]
  | .bitmapRangeComparison q =>
    join [byte [(3, 4), (1, q.maskPresent.toNat), (1, q.params.signed.toNat),
        (3, rangeComparison q.params.comparisonType)],
      length q.length.val.toNat, length q.start.val.toNat, length q.stop.val.toNat, raw q.mask,
      fileOffset q.file]
  | .stringTokenSearch q =>
    join [byte [(3, 7), (1, q.maskPresent.toNat), (1, 0), (3, q.maxErrors.toNat)],
      length q.length.val.toNat, raw q.mask, raw q.value, fileOffset q.file]

/-! ## Actions -/

/-- First byte `grcccccc`: two flags and the opcode. -/
def action1 (a b : Bool) (code : Nat) : Option (List U8) :=
  byte [(1, a.toNat), (1, b.toNat), (6, code)]

/-- Bytes: header. -/
def header (h : ActionHeader) (code : Nat) : Option (List U8) := action1 h.group h.response code

/-- Bytes: file data. -/
def fileData (big : Bool) (code : Nat) (o : Op.FileData) : Option (List U8) :=
  join [header o.header code, fileOffset o.offset, prefixed (file big o.data)]

/-- Bytes: file properties. -/
def fileProperties (code : Nat) (o : Op.FileProperties) : Option (List U8) :=
  join [header o.header code, raw [o.fileId], fileHeader o.fileHeader]

/-- Bytes: file id. -/
def fileId (code : Nat) (o : Op.FileId) : Option (List U8) := join [header o.header code, raw [o.fileId]]

/-- Bytes: action query. -/
def actionQuery (code : Nat) (o : Op.ActionQuery) : Option (List U8) :=
  join [header o.header code, query o.query]

/-- Codes: permission level. -/
def permissionLevel : PermissionLevel → U8
  | .user => 0 | .root => 1
/-- Bytes: permission. -/
def permission : Permission → Option (List U8)
  | .dash7 b => raw ((0x42 : U8) :: b.toList)

/-- Codes: status type. -/
def statusType : Op.StatusType → Nat
  | .action => 0 | .interface => 1 | .interfaceFinal => 2

/-- Bytes: status. -/
def status (v : Variant) : Op.Status → Option (List U8)
  | .action s => raw [s.actionId, s.status.code]
  | .interface o => join [interfaceType o.interfaceType, prefixed (interfaceStatus v o.status)]
  | .interfaceFinal o => join [raw [o.interfaceId], prefixed (interfaceFinalStatus o.status)]

/-- Codes: chunk step. -/
def chunkStep : Op.ChunkStep → Nat
  | .continue => 0 | .start => 1 | .end => 2 | .startEnd => 3
/-- Codes: logic op. -/
def logicOp : Op.LogicOp → Nat
  | .or => 0 | .xor => 1 | .nor => 2 | .nand => 3

/-- Bytes: optional. -/
def optional {α : Type} (f : α → Option (List U8)) : Option α → Option (List U8)
  | none => raw []
  | some a => f a

/-- Every action but the TX status of the wizzilab build, which is not made of whole bytes. -/
def action (v : Variant) (big : Bool) : Action → Option (List U8)
  | .nop o => header o.header 0
  | .readFileData o => join [header o.header 1, fileOffset o.offset, length o.length.val.toNat]
  | .readFileProperties o => fileId 2 o
  | .writeFileData o => fileData big 4 o
  | .writeFileDataFlush o => fileData big 5 o
  | .writeFileProperties o => fileProperties 6 o
  | .actionQuery o => actionQuery 8 o
  | .breakQuery o => actionQuery 9 o
  | .permissionRequest o =>
    join [header o.header 10, raw [permissionLevel o.level], permission o.permission]
  | .verifyChecksum o => actionQuery 11 o
  | .existFile o => fileId 16 o
  | .createNewFile o => fileProperties 17 o
  | .deleteFile o => fileId 18 o
  | .restoreFile o => fileId 19 o
  | .flushFile o => fileId 20 o
  | .copyFile o => join [header o.header 23, raw [o.srcFileId, o.dstFileId]]
  | .executeFile o => fileId 31 o
  | .returnFileData o => fileData big 32 o
  | .returnFileProperties o => fileProperties 33 o
  | .status o => join [byte [(2, statusType o.statusType), (6, 34)], status v o.status]
  | .responseTag o => join [action1 o.header.endOfPacket o.header.error 35, raw [o.id]]
  | .txStatus _ => none
  | .chunk o => byte [(2, chunkStep o.step), (6, 48)]
  | .logic o => byte [(2, logicOp o.logic), (6, 49)]
  | .forward o => join [action1 false o.response 50, interfaceConfiguration v big o.configuration]
  | .indirectForward o =>
    join [action1 o.header.overloaded o.header.response 51,
      optional (indirectInterface v) o.configuration]
  | .requestTag o => join [action1 o.endOfPacket false 52, raw [o.id]]
  | .extension o => header o.header 63

/-- The actions one after the other. -/
def command (v : Variant) (big : Bool) (c : Command) : Option (List U8) :=
  join (c.actions.map (action v big))

end Dash7.Wire
