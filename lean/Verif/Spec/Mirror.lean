import Verif.Spec.Wire
import Verif.Model.Frame
import Verif.Model.Items

/-!
# What the other host sees: the numbers without a fixed byte order, with their bytes reversed
-/

namespace Dash7.Spec

/-- The number whose bytes are those of `v` in reverse order. -/
def mirror (k : Nat) (v : BitVec (8 * k)) : BitVec (8 * k) :=
  BitVec.ofNat (8 * k) (bigEndianValue (bigEndian k v.toNat).reverse)

/-- Files: the network security key. -/
def mirrorFile : File → File
  | .nwlSecurityKey s => .nwlSecurityKey ⟨mirror 16 s.key⟩
  | f => f

/-- Interface configurations: the two addresses of a LoRaWAN ABP configuration. -/
def mirrorConfiguration : InterfaceConfiguration → InterfaceConfiguration
  | .loRaWanABP c =>
    .loRaWanABP { c with deviceAddress := mirror 4 c.deviceAddress, networkId := mirror 4 c.networkId }
  | c => c

/-- TX statuses: the time stamp. -/
def mirrorTxStatus : InterfaceTxStatus → InterfaceTxStatus
  | .dash7 s => .dash7 { s with lts := mirror 4 s.lts }
  | s => s

/-- Actions. -/
def mirrorAction : Action → Action
  | .writeFileData o => .writeFileData { o with data := mirrorFile o.data }
  | .writeFileDataFlush o => .writeFileDataFlush { o with data := mirrorFile o.data }
  | .returnFileData o => .returnFileData { o with data := mirrorFile o.data }
  | .forward o => .forward { o with configuration := mirrorConfiguration o.configuration }
  | .txStatus o => .txStatus { o with status := { o.status with status := mirrorTxStatus o.status.status } }
  | a => a

/-- Commands. -/
def mirrorCommand (c : Command) : Command := ⟨c.actions.map mirrorAction⟩

/-- Transport frames. -/
def mirrorTransport (f : Trans.Frame) : Trans.Frame := ⟨f.header, mirrorCommand f.command⟩

/-- Network frames. -/
def mirrorNetwork (f : Net.Frame) : Net.Frame := ⟨f.header, mirrorTransport f.frame⟩

/-- Foreground frames: also the CRC. -/
def mirrorForeground (f : ForegroundFrame) : ForegroundFrame :=
  ⟨f.header, mirrorNetwork f.frame, mirror 2 f.crc16⟩

/-- Background frames: payload and CRC. -/
def mirrorBackground (f : BackgroundFrame) : BackgroundFrame :=
  { f with payload := mirror 2 f.payload, crc16 := mirror 2 f.crc16 }

/-- The types with such a number; all others are the same on every host. -/
def mirrorItem : (i : Item) → i.Val → i.Val
  | .securityKey => fun s => ⟨mirror 16 s.key⟩
  | .file => mirrorFile
  | .dash7InterfaceTxStatus => fun s => { s with lts := mirror 4 s.lts }
  | .loRaWANABP => fun c => { c with deviceAddress := mirror 4 c.deviceAddress, networkId := mirror 4 c.networkId }
  | .interfaceConfiguration => mirrorConfiguration
  | .interfaceTxStatusOperation => fun o => { o with status := mirrorTxStatus o.status }
  | .backgroundFrame => mirrorBackground
  | _ => id

end Dash7.Spec
