import Verif.Model.Session

/-!
# `dash7/src/app/interface.rs`
-/

namespace Dash7

/-- `/repo/dash7/src/app/interface.rs:9-33` (`Dash7InterfaceConfiguration`).
`executionDelayTimeout` does not exist in the sub-iot build; there it is modelled as the default. -/
structure Dash7InterfaceConfiguration where
  qos : QoS
  dormantSessionTimeout : VarInt
  executionDelayTimeout : VarInt
  addressee : Addressee
  deriving DecidableEq, Repr

/-- `/repo/dash7/src/app/interface.rs:28-29`: the field present in all builds but sub-iot. -/
def readExecutionDelay (cfg : Cfg) : P VarInt :=
  match cfg.variant with
  | .subiot => P.pure VarInt.default
  | _ => VarInt.read

/-- `/repo/dash7/src/app/interface.rs:28-29`: the field present in all builds but sub-iot. -/
def writeExecutionDelay (cfg : Cfg) (v : VarInt) : W :=
  match cfg.variant with
  | .subiot => .ok []
  | _ => v.write

/-- `/repo/dash7/src/app/interface.rs:9-33` (derived reader). -/
def Dash7InterfaceConfiguration.read (cfg : Cfg) : P Dash7InterfaceConfiguration := do
  let q ← QoS.read
  let d ← VarInt.read
  let e ← readExecutionDelay cfg
  let a ← Addressee.read cfg
  P.pure ⟨q, d, e, a⟩

/-- `/repo/dash7/src/app/interface.rs:9-33` (derived writer). -/
def Dash7InterfaceConfiguration.write (cfg : Cfg) (c : Dash7InterfaceConfiguration) : W :=
  W.seq [c.qos.write, c.dormantSessionTimeout.write,
    writeExecutionDelay cfg c.executionDelayTimeout, c.addressee.write cfg]

/-- `/repo/dash7/src/app/interface.rs:35-46` (`LoRaWANInterfaceConfiguration`). -/
structure LoRaWANInterfaceConfiguration where
  adrEnabled : Bool
  requestAck : Bool
  applicationPort : U8
  dataRate : U8
  deriving DecidableEq, Repr

/-- `/repo/dash7/src/app/interface.rs:35-46` (derived reader). -/
def LoRaWANInterfaceConfiguration.read : P LoRaWANInterfaceConfiguration := do
  P.pad 5
  let a ← P.flag
  let r ← P.flag
  P.pad 1
  let p ← P.u8
  let d ← P.u8
  P.pure ⟨a, r, p, d⟩

/-- `/repo/dash7/src/app/interface.rs:35-46` (derived writer). -/
def LoRaWANInterfaceConfiguration.write (c : LoRaWANInterfaceConfiguration) : W :=
  W.seq [W.pad 5, W.flag c.adrEnabled, W.flag c.requestAck, W.pad 1, W.u8 c.applicationPort,
    W.u8 c.dataRate]

/-- `/repo/dash7/src/app/interface.rs:48-60` (`LoRaWANOTAAInterfaceConfiguration`). -/
structure LoRaWANOTAAInterfaceConfiguration where
  base : LoRaWANInterfaceConfiguration
  deviceEui : List U8
  appEui : List U8
  appKey : List U8
  deriving DecidableEq, Repr

/-- `/repo/dash7/src/app/interface.rs:48-60` (derived reader). -/
def LoRaWANOTAAInterfaceConfiguration.read : P LoRaWANOTAAInterfaceConfiguration := do
  let b ← LoRaWANInterfaceConfiguration.read
  let d ← P.count P.u8 8
  let a ← P.count P.u8 8
  let k ← P.count P.u8 16
  P.pure ⟨b, d, a, k⟩

/-- `/repo/dash7/src/app/interface.rs:48-60` (derived writer: vectors are written as long as they are). -/
def LoRaWANOTAAInterfaceConfiguration.write (c : LoRaWANOTAAInterfaceConfiguration) : W :=
  W.seq [c.base.write, W.list W.u8 c.deviceEui, W.list W.u8 c.appEui, W.list W.u8 c.appKey]

/-- `/repo/dash7/src/app/interface.rs:62-75` (`LoRaWANABPInterfaceConfiguration`). -/
structure LoRaWANABPInterfaceConfiguration where
  base : LoRaWANInterfaceConfiguration
  networkSessionKey : List U8
  appSessionKey : List U8
  deviceAddress : U32
  networkId : U32
  deriving DecidableEq, Repr

/-- `/repo/dash7/src/app/interface.rs:62-75` (derived reader; the `u32`s are in host byte order). -/
def LoRaWANABPInterfaceConfiguration.read (cfg : Cfg) : P LoRaWANABPInterfaceConfiguration := do
  let b ← LoRaWANInterfaceConfiguration.read
  let n ← P.count P.u8 16
  let a ← P.count P.u8 16
  let d ← P.uintHost cfg 4
  let i ← P.uintHost cfg 4
  P.pure ⟨b, n, a, d, i⟩

/-- `/repo/dash7/src/app/interface.rs:62-75` (derived writer). -/
def LoRaWANABPInterfaceConfiguration.write (cfg : Cfg) (c : LoRaWANABPInterfaceConfiguration) : W :=
  W.seq [c.base.write, W.list W.u8 c.networkSessionKey, W.list W.u8 c.appSessionKey,
    W.uintHost cfg 4 c.deviceAddress, W.uintHost cfg 4 c.networkId]

/-- `/repo/dash7/src/app/interface.rs:77-98` (`InterfaceConfiguration`). -/
inductive InterfaceConfiguration
  | host
  | serial
  | loRaWanABP (c : LoRaWANABPInterfaceConfiguration)
  | loRaWanOTAA (c : LoRaWANOTAAInterfaceConfiguration)
  | dash7 (c : Dash7InterfaceConfiguration)
  | unknown (id : U8)
  deriving DecidableEq, Repr

/-- `/repo/dash7/src/app/interface.rs:77-98` (derived reader; the `_` variant stores the id). -/
def InterfaceConfiguration.read (cfg : Cfg) : P InterfaceConfiguration := do
  let i ← P.u8
  match i.toNat with
  | 0x00 => P.pure .host
  | 0x01 => P.pure .serial
  | 0x02 => do let c ← LoRaWANABPInterfaceConfiguration.read cfg; P.pure (.loRaWanABP c)
  | 0x03 => do let c ← LoRaWANOTAAInterfaceConfiguration.read; P.pure (.loRaWanOTAA c)
  | 0xD7 => do let c ← Dash7InterfaceConfiguration.read cfg; P.pure (.dash7 c)
  | _ => P.pure (.unknown i)

/-- `/repo/dash7/src/app/interface.rs:77-98` (derived writer). -/
def InterfaceConfiguration.write (cfg : Cfg) : InterfaceConfiguration → W
  | .host => W.seq [W.u8 0x00]
  | .serial => W.seq [W.u8 0x01]
  | .loRaWanABP c => W.seq [W.u8 0x02, c.write cfg]
  | .loRaWanOTAA c => W.seq [W.u8 0x03, c.write]
  | .dash7 c => W.seq [W.u8 0xD7, c.write cfg]
  | .unknown i => W.seq [W.u8 i]

/-- `/repo/dash7/src/app/interface.rs:100-115` (`IndirectInterface`). -/
inductive IndirectInterface
  | host
  | serial
  | dash7 (a : Addressee)
  | unknown (id : U8)
  deriving DecidableEq, Repr

/-- `/repo/dash7/src/app/interface.rs:100-115` (derived reader; the `_` variant stores the id). -/
def IndirectInterface.read (cfg : Cfg) : P IndirectInterface := do
  let i ← P.u8
  match i.toNat with
  | 0x00 => P.pure .host
  | 0x01 => P.pure .serial
  | 0xD7 => do let a ← Addressee.read cfg; P.pure (.dash7 a)
  | _ => P.pure (.unknown i)

/-- `/repo/dash7/src/app/interface.rs:100-115` (derived writer). -/
def IndirectInterface.write (cfg : Cfg) : IndirectInterface → W
  | .host => W.seq [W.u8 0x00]
  | .serial => W.seq [W.u8 0x01]
  | .dash7 a => W.seq [W.u8 0xD7, a.write cfg]
  | .unknown i => W.seq [W.u8 i]

end Dash7
