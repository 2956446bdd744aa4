import Verif.Spec.Layout
import Verif.Spec.WF

/-!
# What the decoders take, as a grammar on bits

For every type: which strings of bits stand for which value.  A `Form` is a set of bit strings, put together
from fields of a given width, reserved bits of any content, and conditions on the value.  No reader and no
writer of the model is mentioned, only its data types; the tables of codes are those of `Verif.Spec.Layout`.
-/

namespace Dash7

/-- A set of bit strings. -/
abbrev Form := List Bool → Prop

namespace Form

/-! ## Building blocks -/

/-- The number a row of bits stands for, most significant first. -/
def value : List Bool → Nat
  | [] => 0
  | b :: bs => b.toNat * 2 ^ bs.length + value bs

/-- The bits of a string of bytes, most significant first. -/
def ofBytes (bs : List U8) : List Bool :=
  bs.flatMap fun b =>
    [b.getLsbD 7, b.getLsbD 6, b.getLsbD 5, b.getLsbD 4, b.getLsbD 3, b.getLsbD 2, b.getLsbD 1,
      b.getLsbD 0]

/-- The number `v` in `n` bits. -/
def field (n v : Nat) : Form := fun c => c.length = n ∧ value c = v

/-- One bit. -/
def flag (b : Bool) : Form := fun c => c = [b]

/-- `n` bits of any content. -/
def reserved (n : Nat) : Form := fun c => c.length = n

/-- These bytes. -/
def bytes (bs : List U8) : Form := fun c => c = ofBytes bs

/-- No bits, but a condition. -/
def given (p : Prop) : Form := fun c => c = [] ∧ p

/-- One after the other. -/
def all : List Form → Form
  | [] => fun c => c = []
  | f :: fs => fun c => ∃ a b, c = a ++ b ∧ f a ∧ all fs b

/-- A number in `k` bytes, big-endian. -/
def number (k v : Nat) : Form := field (8 * k) v

/-- A number in `k` bytes in the byte order of the host. -/
def hostNumber (big : Bool) (k v : Nat) : Form := fun c =>
  ∃ bs : List U8, c = ofBytes bs ∧ number k v (ofBytes (if big then bs else bs.reverse))

/-- Exactly `n` bytes. -/
def sized (n : Nat) (bs : List U8) : Form := all [given (bs.length = n), bytes bs]

/-- A length operand: two bits tell how many bytes follow the first one. It need not be the shortest. -/
def length (n : Nat) : Form := fun c => ∃ k, k < 4 ∧ all [field 2 k, field (6 + 8 * k) n] c

/-- A length operand nobody looks at. -/
def anyLength : Form := fun c => ∃ n, length n c

/-- A compressed integer: three bits exponent `e`, five bits mantissa `m`, standing for `m * 4^e`. -/
def varInt (v : VarInt) : Form := fun c =>
  ∃ e m, v.value.toNat = m * 4 ^ e ∧ v.ceil = false ∧ all [field 3 e, field 5 m] c

/-! ## Physical layer -/

/-- A bit of any value, then band, class and coding. -/
def channelHeader (h : ChannelHeader) : Form :=
  all [reserved 1, field 3 (Wire.channelBand h.band), field 2 (Wire.channelClass h.cls),
    field 2 (Wire.channelCoding h.coding)]

/-- Channel header, index. -/
def channel (c : Channel) : Form := all [channelHeader c.header, number 2 c.index.toNat]

/-- Band, bandwidth, an index of 11 bits, noise floor. -/
def channelStatus (c : ChannelStatus) : Form :=
  all [all [field 3 (Wire.channelBand c.identifier.band),
      field 2 (Wire.bandwidth c.identifier.bandwidth), field 11 c.identifier.index.toNat],
    field 8 c.noiseFloor.toNat]

/-- Two indices and three bytes. -/
def subBand (b : SubBand) : Form :=
  all [number 2 b.indexStart.toNat, number 2 b.indexEnd.toNat, field 8 b.eirp.toNat,
    field 8 b.cca.toNat, field 8 b.duty.toNat]

/-! ## Link and network layer -/

/-- Bitmap and scan period. -/
def subProfile (s : SubProfile) : Form :=
  all [field 8 s.subbandBitmap.toNat, varInt s.scanAutomationPeriod]

/-- Two nibbles. -/
def accessClass (a : AccessClass) : Form := all [field 4 a.specifier.toNat, field 4 a.mask.toNat]

/-- Channel header, four sub-profiles, eight sub-bands. -/
def accessProfile (a : AccessProfile) : Form :=
  all [channelHeader a.channelHeader, all (a.subProfiles.toList.map subProfile),
    all (a.subBands.toList.map subBand)]

/-- An address of the given kind. -/
def address (t : AddressType) (a : Address) : Form :=
  match t, a with
  | .nbId, .nbId n => varInt n
  | .noId, .noId => all []
  | .uId, .uId a => number 8 a.toNat
  | .vId, .vId a => number 2 a.toNat
  | _, _ => given False

/-- A security header of the given kind: five bytes, or nothing. -/
def nlsState (m : NlsMethod) (s : NlsState) : Form :=
  match m, s with
  | .none, .none => all []
  | .aesCtr, .aesCtr b | .aesCbcMac128, .aesCbcMac128 b | .aesCbcMac64, .aesCbcMac64 b
  | .aesCbcMac32, .aesCbcMac32 b | .aesCcm128, .aesCcm128 b | .aesCcm64, .aesCcm64 b
  | .aesCcm32, .aesCcm32 b => bytes b.toList
  | _, _ => given False

/-- Two bits of any value, address type, four bits of security method. -/
def addresseeControl (a : Addressee) : Form :=
  all [reserved 2, field 2 (Wire.addressType a.addressType), field 4 (Wire.nlsMethod a.nlsMethod),
    given (a.groupCondition = .any ∧ a.useVid = false)]

/-- Group condition, address type, use VID, three bits of security method. -/
def addresseeControlWizzilab (a : Addressee) : Form :=
  all [field 2 (Wire.groupCondition a.groupCondition), field 2 (Wire.addressType a.addressType),
    flag a.useVid, field 3 (Wire.nlsMethod a.nlsMethod)]

/-- First byte, access class, then address and security state of the kinds told by the first byte. -/
def addressee (v : Variant) (a : Addressee) : Form :=
  all [if v = .wizzilab then addresseeControlWizzilab a else addresseeControl a,
    accessClass a.accessClass, address a.addressType a.address, nlsState a.nlsMethod a.nlsState]

/-! ## Files -/

/-- File id and offset. -/
def fileOffset (f : FileOffset) : Form := all [field 8 f.fileId.toNat, length f.offset.val.toNat]

/-- Read, write, execute. -/
def userPermissions (u : Data.UserPermissions) : Form :=
  all [flag u.read, flag u.write, flag u.executable]

/-- Encrypted, executable, user, guest. -/
def filePermissions (p : Data.FilePermissions) : Form :=
  all [flag p.encrypted, flag p.executable, userPermissions p.user, userPermissions p.guest]

/-- Enabled, condition, two bits of any value, storage class. -/
def fileProperties (p : Data.FileProperties) : Form :=
  all [flag p.enabled, field 3 (Wire.actionCondition p.condition), reserved 2,
    field 2 (Wire.storageClass p.storageClass)]

/-- Permissions, properties, two file ids, size and allocated size. -/
def fileHeader (h : Data.FileHeader) : Form :=
  all [filePermissions h.permissions, fileProperties h.properties, field 8 h.alpCommandFileId.toNat,
    field 8 h.interfaceFileId.toNat, number 4 h.fileSize.toNat, number 4 h.allocatedSize.toNat]

/-- A string of exactly `n` bytes of UTF-8. -/
def string (n : Nat) (s : String) : Form := sized n (s.toUTF8.data.toList.map UInt8.toBitVec)

/-- Two bytes behind the access class are skipped. -/
def dllConfig (d : DllConfig) : Form :=
  all [field 8 d.ac.toNat, reserved 16, field 8 d.lqFilter.toNat, field 8 d.nfCtrl.toNat,
    field 8 d.rxNfMethodParameter.toNat, field 8 d.txNfMethodParameter.toNat]

/-- Fields in order. -/
def dllStatus (d : DllStatus) : Form :=
  all [field 8 d.lastRxPacketLevel.toNat, field 8 d.lastRxPacketLinkBudget.toNat,
    field 8 d.noiseFloor.toNat, channelHeader d.channelHeader, number 2 d.channelIndex.toNat,
    number 2 d.scanTimeoutRatio.toNat, number 4 d.scanCount.toNat, number 4 d.scanTimeoutCount.toNat]

/-- Fields in order. -/
def engineeringMode (d : EngineeringMode) : Form :=
  all [field 8 (Wire.engineeringModeMethod d.mode).toNat, field 8 d.flags.toNat,
    field 8 d.timeout.toNat, channel d.channel, field 8 d.eirp.toNat]

/-- Fields in order. -/
def factorySettings (f : FactorySettings) : Form :=
  all [field 8 f.gain.toNat, number 4 f.rxBwLowRate.toNat, number 4 f.rxBwNormalRate.toNat,
    number 4 f.rxBwHighRate.toNat, number 4 f.bitrateLoRate.toNat, number 4 f.fdevLoRate.toNat,
    number 4 f.bitrateNormalRate.toNat, number 4 f.fdevNormalRate.toNat,
    number 4 f.bitrateHiRate.toNat, number 4 f.fdevHiRate.toNat,
    field 8 f.preambleSizeLoRate.toNat, field 8 f.preambleSizeNormalRate.toNat,
    field 8 f.preambleSizeHiRate.toNat, field 8 f.preambleDetectorSizeLoRate.toNat,
    field 8 f.preambleDetectorSizeNormalRate.toNat, field 8 f.preambleDetectorSizeHiRate.toNat,
    field 8 f.preambleTolLoRate.toNat, field 8 f.preambleTolNormalRate.toNat,
    field 8 f.preambleTolHiRate.toNat, field 8 f.rssiSmoothing.toNat, field 8 f.rssiOffset.toNat,
    number 4 f.loraBw.toNat, field 8 f.loraSf.toNat, field 8 f.gaussian.toNat,
    number 2 f.paramp.toNat]

/-- Version, names of 6 and 7 bytes. -/
def firmwareVersion (f : FirmwareVersion) : Form :=
  all [field 8 f.major.toNat, field 8 f.minor.toNat, string 6 f.applicationName, string 7 f.gitSha1]

/-- Fields in order; as many channels as the byte in front of them says. -/
def phyStatus (p : PhyStatus) : Form :=
  all [number 4 p.upTime.toNat, number 4 p.rxTime.toNat, number 4 p.txTime.toNat,
    number 2 p.txDutyCycle.toNat, field 8 p.channelStatusListLength.toNat,
    all [given (p.channelStatus.length = p.channelStatusListLength.toNat),
      all (p.channelStatus.map channelStatus)]]

/-- The ids of the files with a structure of their own. -/
def structured (b : Nat) : Prop :=
  b ∈ [0x00, 0x01, 0x02, 0x05, 0x06, 0x09, 0x0A, 0x0B, 0x0E] ∨ 0x20 ≤ b ∧ b ≤ 0x2E

/-- The content of file `b`, declared as `n` bytes: for the files with a structure of their own the
declared number of bytes plays no role. -/
def file (big : Bool) (b n : Nat) : File → Form
  | .accessProfile i p => all [given (b = 0x20 + i.val), accessProfile p]
  | .uId a => all [given (b = 0x00), address .uId a]
  | .factorySettings f => all [given (b = 0x01), factorySettings f]
  | .firmwareVersion f => all [given (b = 0x02), firmwareVersion f]
  | .engineeringMode f => all [given (b = 0x05), engineeringMode f]
  | .vId a => all [given (b = 0x06), address .vId a]
  | .phyStatus f => all [given (b = 0x09), phyStatus f]
  | .dllConfig f => all [given (b = 0x0A), dllConfig f]
  | .dllStatus f => all [given (b = 0x0B), dllStatus f]
  | .nwlSecurityKey f => all [given (b = 0x0E), hostNumber big 16 f.key.toNat]
  | .other d => all [given (¬ structured b), sized n d]

/-! ## Interfaces -/

/-- Stop on error, record, retry mode, response mode. -/
def qos (q : QoS) : Form :=
  all [flag q.stopOnError, flag q.record, field 3 (Wire.retryMode q.retryMode),
    field 3 (Wire.responseMode q.responseMode)]

/-- Fields in order; four bits of any value behind the flags. -/
def dash7InterfaceStatus (v : Variant) (s : Dash7InterfaceStatus) : Form :=
  all [channel s.channel, field 8 s.rxLevel.toNat, field 8 s.linkBudget.toNat,
    field 8 s.targetRxLevel.toNat, flag s.nls, flag s.missed, flag s.retry, flag s.unicast,
    reserved 4, field 8 s.fifoToken.toNat, field 8 s.sequenceNumber.toNat, varInt s.responseTimeout,
    addressee v s.addressee]

/-- The interface ids which do not mean "unknown". -/
def knownInterface (i : Nat) : Prop := i = 0x00 ∨ i = 0x01 ∨ i = 0x02 ∨ i = 0x03 ∨ i = 0xD7

/-- Interface id, length, status. Nobody looks at the length of a known interface. Behind an unknown id
come as many bytes as the length says; if the id is not consumed, it is the start of the length. -/
def interfaceStatus (v : Variant) (idConsumed : Bool) (o : Op.InterfaceStatusOperation) : Form :=
  match o.interfaceType, o.status with
  | .host, .host => all [field 8 0x00, anyLength]
  | .serial, .serial => all [field 8 0x01, anyLength]
  | .dash7, .dash7 s => all [field 8 0xD7, anyLength, dash7InterfaceStatus v s]
  | .unknown, .other b =>
    if idConsumed then
      fun c => ∃ i, ¬ knownInterface i ∧ all [field 8 i, length b.length, bytes b] c
    else
      all [fun c => length b.length c ∧ ¬ knownInterface (value (c.take 8)), bytes b]
  | _, _ => given False

/-- The named codes: 0 and 0xEA to 0xFF. -/
def finalStatusCode (c : InterfaceFinalStatusCode) : Form :=
  all [field 8 c.code.toNat, given (c.code.toNat = 0 ∨ 0xEA ≤ c.code.toNat)]

/-- Interface id, length, status: one code for DASH7, as many bytes as told for the others. -/
def interfaceFinalStatus (o : Op.InterfaceFinalStatusOperation) : Form :=
  match o.status with
  | .dash7 c => all [field 8 o.interfaceId.toNat, given (o.interfaceId.toNat = 0xD7), anyLength,
      finalStatusCode c]
  | .other b => all [field 8 o.interfaceId.toNat, given (o.interfaceId.toNat ≠ 0xD7),
      length b.length, bytes b]

/-- Fields in order; three bytes of any value before the time stamp. -/
def dash7InterfaceTxStatus (v : Variant) (big : Bool) (s : Dash7InterfaceTxStatus) : Form :=
  all [channel s.channel, field 8 s.targetRxLevel.toNat, finalStatusCode s.error, reserved 24,
    hostNumber big 4 s.lts.toNat, addressee v s.addressee]

/-- Interface id, length, status. -/
def interfaceTxStatus (v : Variant) (big : Bool) (o : Op.InterfaceTxStatusOperation) : Form :=
  match o.status with
  | .dash7 s => all [field 8 o.interfaceId.toNat, given (o.interfaceId.toNat = 0xD7), anyLength,
      dash7InterfaceTxStatus v big s]
  | .other b => all [field 8 o.interfaceId.toNat, given (o.interfaceId.toNat ≠ 0xD7),
      length b.length, bytes b]

/-- Without an execution delay in the sub-iot build. -/
def dash7InterfaceConfiguration (v : Variant) (c : Dash7InterfaceConfiguration) : Form :=
  all [qos c.qos, varInt c.dormantSessionTimeout,
    if v = .subiot then given (c.executionDelayTimeout = ⟨0, false⟩) else varInt c.executionDelayTimeout,
    addressee v c.addressee]

/-- Five bits of any value, two flags, a bit of any value, port, data rate. -/
def loRaWAN (c : LoRaWANInterfaceConfiguration) : Form :=
  all [reserved 5, flag c.adrEnabled, flag c.requestAck, reserved 1, field 8 c.applicationPort.toNat,
    field 8 c.dataRate.toNat]

/-- Keys of 8, 8 and 16 bytes. -/
def loRaWANOTAA (c : LoRaWANOTAAInterfaceConfiguration) : Form :=
  all [loRaWAN c.base, sized 8 c.deviceEui, sized 8 c.appEui, sized 16 c.appKey]

/-- Two keys of 16 bytes, two numbers in host order. -/
def loRaWANABP (big : Bool) (c : LoRaWANABPInterfaceConfiguration) : Form :=
  all [loRaWAN c.base, sized 16 c.networkSessionKey, sized 16 c.appSessionKey,
    hostNumber big 4 c.deviceAddress.toNat, hostNumber big 4 c.networkId.toNat]

/-- Interface id and configuration. -/
def interfaceConfiguration (v : Variant) (big : Bool) : InterfaceConfiguration → Form
  | .host => all [field 8 0x00]
  | .serial => all [field 8 0x01]
  | .loRaWanABP c => all [field 8 0x02, loRaWANABP big c]
  | .loRaWanOTAA c => all [field 8 0x03, loRaWANOTAA c]
  | .dash7 c => all [field 8 0xD7, dash7InterfaceConfiguration v c]
  | .unknown i => all [field 8 i.toNat, given (¬ knownInterface i.toNat)]

/-- Interface id and addressee. -/
def indirectInterface (v : Variant) : IndirectInterface → Form
  | .host => all [field 8 0x00]
  | .serial => all [field 8 0x01]
  | .dash7 a => all [field 8 0xD7, addressee v a]
  | .unknown i => all [field 8 i.toNat, given (i.toNat ≠ 0x00 ∧ i.toNat ≠ 0x01 ∧ i.toNat ≠ 0xD7)]

/-! ## Queries -/

/-- Signed flag and comparison. -/
def arithmetic (p : ArithmeticQueryParams) : Form :=
  all [flag p.signed, field 3 (Wire.arithmeticComparison p.comparisonType)]

/-- Signed flag and comparison. -/
def range (p : RangeQueryParams) : Form :=
  all [flag p.signed, field 3 (Wire.rangeComparison p.comparisonType)]

/-- A mask of `n` bytes if there is one. -/
def mask (present : Bool) (n : Nat) (m : List U8) : Form := sized (if present then n else 0) m

/-- Type of the query in three bits; masks and values as long as the length says. The mask of a range
comparison and of a token search is there whatever the flag says. -/
def query : Query → Form
  | .nonVoid q => all [field 3 0, reserved 5, length q.length.val.toNat, fileOffset q.file]
  | .comparisonWithZero q =>
    all [field 3 1, flag q.maskPresent, arithmetic q.params, length q.length.val.toNat,
      mask q.maskPresent q.length.val.toNat q.mask, fileOffset q.file]
  | .comparisonWithValue q =>
    all [field 3 2, flag q.maskPresent, arithmetic q.params, length q.length.val.toNat,
      mask q.maskPresent q.length.val.toNat q.mask, sized q.length.val.toNat q.value, fileOffset q.file]
  | .comparisonWithOtherFile q =>
    all [field 3 3, flag q.maskPresent, arithmetic q.params, length q.length.val.toNat,
      mask q.maskPresent q.length.val.toNat q.mask, fileOffset q.file1, fileOffset q.file2]
  | .bitmapRangeComparison q =>
    all [field 3 4, flag q.maskPresent, range q.params, length q.length.val.toNat,
      length q.start.val.toNat, length q.stop.val.toNat, sized q.length.val.toNat q.mask,
      fileOffset q.file]
  | .stringTokenSearch q =>
    all [field 3 7, flag q.maskPresent, reserved 1, field 3 q.maxErrors.toNat,
      length q.length.val.toNat, sized q.length.val.toNat q.mask, sized q.length.val.toNat q.value,
      fileOffset q.file]

/-! ## Actions -/

/-- The code in six bits; it is also what the value stores. -/
def opcode (o : OpCode) (code : Nat) : Form := fun c => o.code.toNat = code ∧ field 6 code c

/-- Two flags. -/
def header (h : ActionHeader) : Form := all [flag h.group, flag h.response]

/-- File id, offset, length and content. -/
def fileData (big : Bool) (code : Nat) (o : Op.FileData) : Form :=
  all [header o.header, opcode o.opcode code, fileOffset o.offset,
    fun c => ∃ n, all [length n, file big o.offset.fileId.toNat n o.data] c]

/-- File id and file header. -/
def filePropertiesAction (code : Nat) (o : Op.FileProperties) : Form :=
  all [header o.header, opcode o.opcode code, field 8 o.fileId.toNat, fileHeader o.fileHeader]

/-- File id. -/
def fileId (code : Nat) (o : Op.FileId) : Form :=
  all [header o.header, opcode o.opcode code, field 8 o.fileId.toNat]

/-- Query. -/
def actionQuery (code : Nat) (o : Op.ActionQuery) : Form :=
  all [header o.header, opcode o.opcode code, query o.query]

/-- `0x42` and eight bytes. -/
def permission : Permission → Form
  | .dash7 b => all [field 8 0x42, bytes b.toList]

/-- A status of the given type. The final status exists in the wizzilab build only. -/
def status (v : Variant) (idConsumed : Bool) (t : Op.StatusType) (s : Op.Status) : Form :=
  match t, s with
  | .action, .action s => all [field 8 s.actionId.toNat, field 8 s.status.code.toNat]
  | .interface, .interface o => interfaceStatus v idConsumed o
  | .interfaceFinal, .interfaceFinal o => if v = .wizzilab then interfaceFinalStatus o else given False
  | _, _ => given False

/-- A configuration if the header says so. -/
def indirectConfiguration (v : Variant) (overloaded : Bool) (c : Option IndirectInterface) : Form :=
  match overloaded, c with
  | true, some i => indirectInterface v i
  | false, none => all []
  | _, _ => given False

/-- Every action. The opcode of a TX status, which exists in the wizzilab build only, stands in the first
byte, and a code of any value, stored as the opcode, in the second. -/
def action (cfg : Cfg) : Action → Form
  | .nop o => all [header o.header, opcode o.opcode 0]
  | .readFileData o =>
    all [header o.header, opcode o.opcode 1, fileOffset o.offset, length o.length.val.toNat]
  | .readFileProperties o => fileId 2 o
  | .writeFileData o => fileData cfg.bigEndianHost 4 o
  | .writeFileDataFlush o => fileData cfg.bigEndianHost 5 o
  | .writeFileProperties o => filePropertiesAction 6 o
  | .actionQuery o => actionQuery 8 o
  | .breakQuery o => actionQuery 9 o
  | .permissionRequest o =>
    all [header o.header, opcode o.opcode 10, field 8 (Wire.permissionLevel o.level).toNat,
      permission o.permission]
  | .verifyChecksum o => actionQuery 11 o
  | .existFile o => fileId 16 o
  | .createNewFile o => filePropertiesAction 17 o
  | .deleteFile o => fileId 18 o
  | .restoreFile o => fileId 19 o
  | .flushFile o => fileId 20 o
  | .copyFile o =>
    all [header o.header, opcode o.opcode 23, field 8 o.srcFileId.toNat, field 8 o.dstFileId.toNat]
  | .executeFile o => fileId 31 o
  | .returnFileData o => fileData cfg.bigEndianHost 32 o
  | .returnFileProperties o => filePropertiesAction 33 o
  | .status o =>
    all [field 2 (Wire.statusType o.statusType), opcode o.opcode 34,
      status cfg.variant cfg.unitPatConsumes o.statusType o.status]
  | .responseTag o =>
    all [all [flag o.header.endOfPacket, flag o.header.error], opcode o.opcode 35, field 8 o.id.toNat]
  | .txStatus o =>
    all [field 2 1, field 6 38, field 6 o.opcode.code.toNat,
      if cfg.variant = .wizzilab then interfaceTxStatus cfg.variant cfg.bigEndianHost o.status
      else given False]
  | .chunk o => all [field 2 (Wire.chunkStep o.step), opcode o.opcode 48]
  | .logic o => all [field 2 (Wire.logicOp o.logic), opcode o.opcode 49]
  | .forward o =>
    all [reserved 1, flag o.response, opcode o.opcode 50,
      interfaceConfiguration cfg.variant cfg.bigEndianHost o.configuration]
  | .indirectForward o =>
    all [all [flag o.header.overloaded, flag o.header.response], opcode o.opcode 51,
      indirectConfiguration cfg.variant o.header.overloaded o.configuration]
  | .requestTag o =>
    all [flag o.endOfPacket, reserved 1, opcode o.opcode 52, field 8 o.id.toNat]
  | .extension o => all [header o.header, opcode o.opcode 63]

/-- What is taken for an action of a known kind, whose code was looked at before: as `action`, but any six
bits may stand for the opcode, and are stored. -/
def operand (cfg : Cfg) : Action → Form
  | .nop o => all [header o.header, field 6 o.opcode.code.toNat]
  | .readFileData o => all [header o.header, field 6 o.opcode.code.toNat, fileOffset o.offset, length o.length.val.toNat]
  | .readFileProperties o | .existFile o | .deleteFile o | .restoreFile o | .flushFile o | .executeFile o =>
    all [header o.header, field 6 o.opcode.code.toNat, field 8 o.fileId.toNat]
  | .writeFileData o | .writeFileDataFlush o | .returnFileData o =>
    all [header o.header, field 6 o.opcode.code.toNat, fileOffset o.offset,
      fun c => ∃ n, all [length n, file cfg.bigEndianHost o.offset.fileId.toNat n o.data] c]
  | .writeFileProperties o | .createNewFile o | .returnFileProperties o =>
    all [header o.header, field 6 o.opcode.code.toNat, field 8 o.fileId.toNat, fileHeader o.fileHeader]
  | .actionQuery o | .breakQuery o | .verifyChecksum o => all [header o.header, field 6 o.opcode.code.toNat, query o.query]
  | .permissionRequest o => all [header o.header, field 6 o.opcode.code.toNat, field 8 (Wire.permissionLevel o.level).toNat,
      permission o.permission]
  | .copyFile o => all [header o.header, field 6 o.opcode.code.toNat, field 8 o.srcFileId.toNat, field 8 o.dstFileId.toNat]
  | .status o => all [field 2 (Wire.statusType o.statusType), field 6 o.opcode.code.toNat,
      status cfg.variant cfg.unitPatConsumes o.statusType o.status]
  | .responseTag o => all [all [flag o.header.endOfPacket, flag o.header.error],
      field 6 o.opcode.code.toNat, field 8 o.id.toNat]
  | .txStatus o => if cfg.variant = .wizzilab then
      all [field 2 1, reserved 6, field 6 o.opcode.code.toNat,
        interfaceTxStatus cfg.variant cfg.bigEndianHost o.status] else given False
  | .chunk o => all [field 2 (Wire.chunkStep o.step), field 6 o.opcode.code.toNat]
  | .logic o => all [field 2 (Wire.logicOp o.logic), field 6 o.opcode.code.toNat]
  | .forward o => all [reserved 1, flag o.response, field 6 o.opcode.code.toNat,
      interfaceConfiguration cfg.variant cfg.bigEndianHost o.configuration]
  | .indirectForward o => all [all [flag o.header.overloaded, flag o.header.response],
      field 6 o.opcode.code.toNat,
      indirectConfiguration cfg.variant o.header.overloaded o.configuration]
  | .requestTag o => all [flag o.endOfPacket, reserved 1, field 6 o.opcode.code.toNat,
      field 8 o.id.toNat]
  | .extension o => all [header o.header, field 6 o.opcode.code.toNat]

/-- Actions one after the other. -/
def actions (cfg : Cfg) (as : List Action) : Form := all (as.map (action cfg))

end Form
end Dash7
