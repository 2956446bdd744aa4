import Verif.Model.Network

/-!
# `dash7/src/session/{mod,interface_final}.rs`
-/

namespace Dash7

/-- `/repo/dash7/src/session/mod.rs:13-34` (`InterfaceType`). -/
inductive InterfaceType | host | serial | loRaWanABP | loRaWanOTAA | dash7 | unknown
  deriving DecidableEq, Repr

/-- `/repo/dash7/src/session/mod.rs:17-33` (`deku_id`; an `id_pat` variant has none). -/
def InterfaceType.id? : InterfaceType → Option U8
  | .host => some 0x00 | .serial => some 0x01 | .loRaWanABP => some 0x02
  | .loRaWanOTAA => some 0x03 | .dash7 => some 0xD7 | .unknown => none

/-- `/repo/dash7/src/session/mod.rs:17-33` (ids, reading; `_` is `Unknown`). -/
def InterfaceType.ofId (i : U8) : InterfaceType :=
  match i.toNat with
  | 0x00 => .host | 0x01 => .serial | 0x02 => .loRaWanABP | 0x03 => .loRaWanOTAA
  | 0xD7 => .dash7 | _ => .unknown

/-- `/repo/dash7/src/session/mod.rs:36-42` (`TryFrom<u8>`): `from_bytes` on the single byte. Whether or
not the unit `id_pat` variant consumes the byte, the remainder is discarded. -/
def InterfaceType.tryFrom (b : U8) : Except Err InterfaceType := .ok (ofId b)

/-- `/repo/dash7/src/session/mod.rs:44-48` (`Into<u8>`): `deku_id().unwrap()`. -/
def InterfaceType.into (t : InterfaceType) : Except Err U8 :=
  match t.id? with
  | some i => .ok i
  | none => .error (.fault .panic)

/-- `/repo/dash7/src/session/mod.rs:13-34` (derived writer). The unit `id_pat` variant has no field
to write, hence writes nothing. -/
def InterfaceType.write (t : InterfaceType) : W :=
  match t.id? with
  | some i => W.u8 i
  | none => .ok []

/-- `/repo/dash7/src/session/mod.rs:51-105` (`ResponseMode`). -/
inductive ResponseMode | no | all | any | noRepeat | onError | preferred
  deriving DecidableEq, Repr

/-- `/repo/dash7/src/session/mod.rs:59-104` (ids). -/
def ResponseMode.id : ResponseMode → U8
  | .no => 0 | .all => 1 | .any => 2 | .noRepeat => 4 | .onError => 5 | .preferred => 6

/-- `/repo/dash7/src/session/mod.rs:59-104` (ids, reading). -/
def ResponseMode.ofId (i : U8) : Option ResponseMode :=
  match i.toNat with
  | 0 => some .no | 1 => some .all | 2 => some .any | 4 => some .noRepeat | 5 => some .onError
  | 6 => some .preferred | _ => none

/-- `/repo/dash7/src/session/mod.rs:51-52` (derived reader, 3 bits). -/
def ResponseMode.read : P ResponseMode := P.enum 3 ofId
/-- `/repo/dash7/src/session/mod.rs:51-52` (derived writer, 3 bits). -/
def ResponseMode.write (m : ResponseMode) : W := W.uint 3 m.id

/-- `/repo/dash7/src/session/mod.rs:110-130` (`RetryMode`). -/
inductive RetryMode
  | no | oneshotRetry | fifoFast | fifoSlow | singleFast | singleSlow | oneshotSticky | rfu
  deriving DecidableEq, Repr

/-- `/repo/dash7/src/session/mod.rs:114-129` (ids). -/
def RetryMode.id : RetryMode → U8
  | .no => 0 | .oneshotRetry => 1 | .fifoFast => 2 | .fifoSlow => 3 | .singleFast => 4
  | .singleSlow => 5 | .oneshotSticky => 6 | .rfu => 7

/-- `/repo/dash7/src/session/mod.rs:114-129` (ids, reading). -/
def RetryMode.ofId (i : U8) : Option RetryMode :=
  match i.toNat with
  | 0 => some .no | 1 => some .oneshotRetry | 2 => some .fifoFast | 3 => some .fifoSlow
  | 4 => some .singleFast | 5 => some .singleSlow | 6 => some .oneshotSticky | 7 => some .rfu
  | _ => none

/-- `/repo/dash7/src/session/mod.rs:110-111` (derived reader, 3 bits). -/
def RetryMode.read : P RetryMode := P.enum 3 ofId
/-- `/repo/dash7/src/session/mod.rs:110-111` (derived writer, 3 bits). -/
def RetryMode.write (m : RetryMode) : W := W.uint 3 m.id

/-- `/repo/dash7/src/session/mod.rs:133-142` (`QoS`). -/
structure QoS where
  stopOnError : Bool
  record : Bool
  retryMode : RetryMode
  responseMode : ResponseMode
  deriving DecidableEq, Repr

/-- `/repo/dash7/src/session/mod.rs:133-142` (derived reader). -/
def QoS.read : P QoS := do
  let s ← P.flag
  let r ← P.flag
  let rm ← RetryMode.read
  let pm ← ResponseMode.read
  P.pure ⟨s, r, rm, pm⟩

/-- `/repo/dash7/src/session/mod.rs:133-142` (derived writer). -/
def QoS.write (q : QoS) : W :=
  W.seq [W.flag q.stopOnError, W.flag q.record, q.retryMode.write, q.responseMode.write]

/-- `/repo/dash7/src/session/mod.rs:182-213` (`Dash7InterfaceStatus`). -/
structure Dash7InterfaceStatus where
  channel : Channel
  rxLevel : U8
  linkBudget : U8
  targetRxLevel : U8
  nls : Bool
  missed : Bool
  retry : Bool
  unicast : Bool
  fifoToken : U8
  sequenceNumber : U8
  responseTimeout : VarInt
  addressee : Addressee
  deriving DecidableEq, Repr

/-- `/repo/dash7/src/session/mod.rs:182-213` (derived reader; four padding bits after the flags). -/
def Dash7InterfaceStatus.read (cfg : Cfg) : P Dash7InterfaceStatus := do
  let channel ← Channel.read
  let rx ← P.u8
  let lb ← P.u8
  let trx ← P.u8
  let nls ← P.flag
  let missed ← P.flag
  let retry ← P.flag
  let unicast ← P.flag
  P.pad 4
  let ft ← P.u8
  let sn ← P.u8
  let rt ← VarInt.read
  let addressee ← Addressee.read cfg
  P.pure ⟨channel, rx, lb, trx, nls, missed, retry, unicast, ft, sn, rt, addressee⟩

/-- `/repo/dash7/src/session/mod.rs:182-213` (derived writer). -/
def Dash7InterfaceStatus.write (cfg : Cfg) (s : Dash7InterfaceStatus) : W :=
  W.seq [s.channel.write, W.u8 s.rxLevel, W.u8 s.linkBudget, W.u8 s.targetRxLevel, W.flag s.nls,
    W.flag s.missed, W.flag s.retry, W.flag s.unicast, W.pad 4, W.u8 s.fifoToken,
    W.u8 s.sequenceNumber, s.responseTimeout.write, s.addressee.write cfg]

/-- `/repo/dash7/src/session/mod.rs:144-164` (`InterfaceStatus`). -/
inductive InterfaceStatus
  | host
  | serial
  | dash7 (s : Dash7InterfaceStatus)
  | other (b : List U8)
  deriving DecidableEq, Repr

/-- `/repo/dash7/src/session/mod.rs:148-162` (`deku_id`). -/
def InterfaceStatus.type : InterfaceStatus → InterfaceType
  | .host => .host
  | .serial => .serial
  | .dash7 _ => .dash7
  | .other _ => .unknown

/-- `/repo/dash7/src/session/mod.rs:144-164` (derived reader in context `(interface_id, length)`; the
LoRaWAN types match no variant). -/
def InterfaceStatus.read (cfg : Cfg) (t : InterfaceType) (length : U32) : P InterfaceStatus :=
  match t with
  | .host => P.pure .host
  | .serial => P.pure .serial
  | .dash7 => do let s ← Dash7InterfaceStatus.read cfg; P.pure (.dash7 s)
  | .unknown => do let b ← P.count P.u8 length.toNat; P.pure (.other b)
  | .loRaWanABP => P.fail .parse
  | .loRaWanOTAA => P.fail .parse

/-- `/repo/dash7/src/session/mod.rs:144-164` (derived writer; no id is written). -/
def InterfaceStatus.write (cfg : Cfg) : InterfaceStatus → W
  | .host => .ok []
  | .serial => .ok []
  | .dash7 s => s.write cfg
  | .other b => W.list W.u8 b

/-! ## `session/interface_final.rs` (wizzilab build) -/

/-- `/repo/dash7/src/session/interface_final.rs:15-64` (`InterfaceFinalStatusCode`): the named codes are
0 and 0xEA..=0xFF; the variants are represented by their discriminants. -/
structure InterfaceFinalStatusCode where
  code : U8
  named : code = 0 ∨ 0xEA ≤ code.toNat
  deriving DecidableEq, Repr

/-- `/repo/dash7/src/session/interface_final.rs:15-64` (derived reader). -/
def InterfaceFinalStatusCode.read : P InterfaceFinalStatusCode := do
  let c ← P.u8
  if h : c = 0 ∨ 0xEA ≤ c.toNat then P.pure ⟨c, h⟩ else P.fail .parse

/-- `/repo/dash7/src/session/interface_final.rs:15-64` (derived writer). -/
def InterfaceFinalStatusCode.write (c : InterfaceFinalStatusCode) : W := W.u8 c.code

/-- `/repo/dash7/src/session/interface_final.rs:5-13` (`InterfaceFinalStatus`). -/
inductive InterfaceFinalStatus
  | dash7 (c : InterfaceFinalStatusCode)
  | other (b : List U8)
  deriving DecidableEq, Repr

/-- `/repo/dash7/src/session/interface_final.rs:5-13` (derived reader in context). -/
def InterfaceFinalStatus.read (interfaceId : U8) (length : U32) : P InterfaceFinalStatus :=
  if interfaceId = 0xD7 then do
    let c ← InterfaceFinalStatusCode.read
    P.pure (.dash7 c)
  else do
    let b ← P.count P.u8 length.toNat
    P.pure (.other b)

/-- `/repo/dash7/src/session/interface_final.rs:5-13` (derived writer). -/
def InterfaceFinalStatus.write : InterfaceFinalStatus → W
  | .dash7 c => c.write
  | .other b => W.list W.u8 b

/-- `/repo/dash7/src/session/interface_final.rs:7-12` (`deku_id`; an `id_pat` variant has none). -/
def InterfaceFinalStatus.id? : InterfaceFinalStatus → Option U8
  | .dash7 _ => some 0xD7
  | .other _ => none

/-- `/repo/dash7/src/session/interface_final.rs:76-89` (`Dash7InterfaceTxStatus`). The `i8` of the target
level is kept as its bits. -/
structure Dash7InterfaceTxStatus where
  channel : Channel
  targetRxLevel : U8
  error : InterfaceFinalStatusCode
  lts : U32
  addressee : Addressee
  deriving DecidableEq, Repr

/-- `/repo/dash7/src/session/interface_final.rs:76-89` (derived reader; `lts` in host byte order after
24 padding bits). -/
def Dash7InterfaceTxStatus.read (cfg : Cfg) : P Dash7InterfaceTxStatus := do
  let c ← Channel.read
  let t ← P.u8
  let e ← InterfaceFinalStatusCode.read
  P.pad 24
  let l ← P.uintHost cfg 4
  let a ← Addressee.read cfg
  P.pure ⟨c, t, e, l, a⟩

/-- `/repo/dash7/src/session/interface_final.rs:76-89` (derived writer). -/
def Dash7InterfaceTxStatus.write (cfg : Cfg) (s : Dash7InterfaceTxStatus) : W :=
  W.seq [s.channel.write, W.u8 s.targetRxLevel, s.error.write, W.pad 24,
    W.uintHost cfg 4 s.lts, s.addressee.write cfg]

/-- `/repo/dash7/src/session/interface_final.rs:66-74` (`InterfaceTxStatus`). -/
inductive InterfaceTxStatus
  | dash7 (s : Dash7InterfaceTxStatus)
  | other (b : List U8)
  deriving DecidableEq, Repr

/-- `/repo/dash7/src/session/interface_final.rs:66-74` (derived reader in context). -/
def InterfaceTxStatus.read (cfg : Cfg) (interfaceId : U8) (length : U32) : P InterfaceTxStatus :=
  if interfaceId = 0xD7 then do
    let s ← Dash7InterfaceTxStatus.read cfg
    P.pure (.dash7 s)
  else do
    let b ← P.count P.u8 length.toNat
    P.pure (.other b)

/-- `/repo/dash7/src/session/interface_final.rs:66-74` (derived writer). -/
def InterfaceTxStatus.write (cfg : Cfg) : InterfaceTxStatus → W
  | .dash7 s => s.write cfg
  | .other b => W.list W.u8 b

/-- `/repo/dash7/src/session/interface_final.rs:68-73` (`deku_id`; an `id_pat` variant has none). -/
def InterfaceTxStatus.id? : InterfaceTxStatus → Option U8
  | .dash7 _ => some 0xD7
  | .other _ => none

end Dash7
