import Verif.Model.Physical

/-!
# `dash7/src/network/{mod,addressee}.rs`, `link/mod.rs`, `transport::GroupCondition`
-/

namespace Dash7

/-! ## `link/mod.rs` -/

/-- `/repo/dash7/src/link/mod.rs:10-14` (`SubProfile`). -/
structure SubProfile where
  subbandBitmap : U8
  scanAutomationPeriod : VarInt
  deriving DecidableEq, Repr

/-- `/repo/dash7/src/link/mod.rs:10-14` (derived reader). -/
def SubProfile.read : P SubProfile := do
  let b ← P.u8
  let s ← VarInt.read
  P.pure ⟨b, s⟩

/-- `/repo/dash7/src/link/mod.rs:10-14` (derived writer). -/
def SubProfile.write (s : SubProfile) : W :=
  W.seq [W.u8 s.subbandBitmap, s.scanAutomationPeriod.write]

/-- `/repo/dash7/src/link/mod.rs:22-28` (`AccessClass`). -/
structure AccessClass where
  specifier : U8
  mask : U8
  deriving DecidableEq, Repr

/-- `/repo/dash7/src/link/mod.rs:31-33` (`AccessClass::new`). -/
def AccessClass.new (specifier mask : U8) : AccessClass := ⟨specifier, mask⟩

/-- `/repo/dash7/src/link/mod.rs:35-40` (`AccessClass::unavailable`). -/
def AccessClass.unavailable : AccessClass := ⟨0x0F, 0x0F⟩

/-- `/repo/dash7/src/link/mod.rs:22-28` (derived reader, two nibbles). -/
def AccessClass.read : P AccessClass := do
  let specifier ← P.uint 8 4
  let mask ← P.uint 8 4
  P.pure ⟨specifier, mask⟩

/-- `/repo/dash7/src/link/mod.rs:22-28` (derived writer). -/
def AccessClass.write (a : AccessClass) : W := W.seq [W.uint 4 a.specifier, W.uint 4 a.mask]

/-- `/repo/dash7/src/link/mod.rs:43-58` (`AccessProfile`). -/
structure AccessProfile where
  channelHeader : ChannelHeader
  subProfiles : Vector SubProfile 4
  subBands : Vector SubBand 8
  deriving DecidableEq, Repr

/-- `/repo/dash7/src/link/mod.rs:43-58` (derived reader) with `read_array`
(`/repo/dash7/src/utils.rs:169-199`; its clean-up on errors is modelled in `Verif.Model.Utils`). -/
def AccessProfile.read : P AccessProfile := do
  let h ← ChannelHeader.read
  let ps ← P.array SubProfile.read 4
  let bs ← P.array SubBand.read 8
  P.pure ⟨h, ps, bs⟩

/-- `/repo/dash7/src/link/mod.rs:43-58` (derived writer) with `write_array`
(`/repo/dash7/src/utils.rs:201-213`). -/
def AccessProfile.write (a : AccessProfile) : W :=
  W.seq [a.channelHeader.write, W.list SubProfile.write a.subProfiles.toList,
    W.list SubBand.write a.subBands.toList]

/-! ## `transport::GroupCondition` -/

/-- `/repo/dash7/src/transport/mod.rs:5-21` (`GroupCondition`). -/
inductive GroupCondition | any | notEqual | equal | greaterThan
  deriving DecidableEq, Repr

/-- `/repo/dash7/src/transport/mod.rs:10-20` (ids). -/
def GroupCondition.id : GroupCondition → U8
  | .any => 0 | .notEqual => 1 | .equal => 2 | .greaterThan => 3

/-- `/repo/dash7/src/transport/mod.rs:10-20` (ids, reading). -/
def GroupCondition.ofId (i : U8) : Option GroupCondition :=
  match i.toNat with
  | 0 => some .any | 1 => some .notEqual | 2 => some .equal | 3 => some .greaterThan | _ => none

/-- `/repo/dash7/src/transport/mod.rs:5-6` (derived reader, 2 bits). -/
def GroupCondition.read : P GroupCondition := P.enum 2 ofId
/-- `/repo/dash7/src/transport/mod.rs:5-6` (derived writer, 2 bits). -/
def GroupCondition.write (g : GroupCondition) : W := W.uint 2 g.id

/-! ## `network/mod.rs` -/

/-- `/repo/dash7/src/network/mod.rs:13-50` (`NlsMethod`). -/
inductive NlsMethod
  | none | aesCtr | aesCbcMac128 | aesCbcMac64 | aesCbcMac32 | aesCcm128 | aesCcm64 | aesCcm32
  deriving DecidableEq, Repr

/-- `/repo/dash7/src/network/mod.rs:20-49` (ids). -/
def NlsMethod.id : NlsMethod → U8
  | .none => 0 | .aesCtr => 1 | .aesCbcMac128 => 2 | .aesCbcMac64 => 3 | .aesCbcMac32 => 4
  | .aesCcm128 => 5 | .aesCcm64 => 6 | .aesCcm32 => 7

/-- `/repo/dash7/src/network/mod.rs:20-49` (ids, reading). -/
def NlsMethod.ofId (i : U8) : Option NlsMethod :=
  match i.toNat with
  | 0 => some .none | 1 => some .aesCtr | 2 => some .aesCbcMac128 | 3 => some .aesCbcMac64
  | 4 => some .aesCbcMac32 | 5 => some .aesCcm128 | 6 => some .aesCcm64 | 7 => some .aesCcm32
  | _ => Option.none

/-- `/repo/dash7/src/network/mod.rs:14-15`: field width, 3 bits for wizzilab, else 4. -/
def NlsMethod.width (cfg : Cfg) : Nat :=
  match cfg.variant with
  | .wizzilab => 3
  | _ => 4

/-- `/repo/dash7/src/network/mod.rs:13-17` (derived reader). -/
def NlsMethod.read (cfg : Cfg) : P NlsMethod := P.enum (width cfg) ofId
/-- `/repo/dash7/src/network/mod.rs:13-17` (derived writer). -/
def NlsMethod.write (cfg : Cfg) (m : NlsMethod) : W := W.uint (width cfg) m.id

/-- `/repo/dash7/src/network/mod.rs:53-73` (`NlsState`). -/
inductive NlsState
  | none
  | aesCtr (b : Vector U8 5)
  | aesCbcMac128 (b : Vector U8 5)
  | aesCbcMac64 (b : Vector U8 5)
  | aesCbcMac32 (b : Vector U8 5)
  | aesCcm128 (b : Vector U8 5)
  | aesCcm64 (b : Vector U8 5)
  | aesCcm32 (b : Vector U8 5)
  deriving DecidableEq, Repr

/-- `/repo/dash7/src/network/mod.rs:57-71` (`deku_id` of `NlsState`). -/
def NlsState.method : NlsState → NlsMethod
  | .none => .none
  | .aesCtr _ => .aesCtr
  | .aesCbcMac128 _ => .aesCbcMac128
  | .aesCbcMac64 _ => .aesCbcMac64
  | .aesCbcMac32 _ => .aesCbcMac32
  | .aesCcm128 _ => .aesCcm128
  | .aesCcm64 _ => .aesCcm64
  | .aesCcm32 _ => .aesCcm32

/-- `/repo/dash7/src/network/mod.rs:53-73` (derived reader, variant chosen by the context). -/
def NlsState.read : NlsMethod → P NlsState
  | .none => P.pure .none
  | .aesCtr => do let b ← P.array P.u8 5; P.pure (.aesCtr b)
  | .aesCbcMac128 => do let b ← P.array P.u8 5; P.pure (.aesCbcMac128 b)
  | .aesCbcMac64 => do let b ← P.array P.u8 5; P.pure (.aesCbcMac64 b)
  | .aesCbcMac32 => do let b ← P.array P.u8 5; P.pure (.aesCbcMac32 b)
  | .aesCcm128 => do let b ← P.array P.u8 5; P.pure (.aesCcm128 b)
  | .aesCcm64 => do let b ← P.array P.u8 5; P.pure (.aesCcm64 b)
  | .aesCcm32 => do let b ← P.array P.u8 5; P.pure (.aesCcm32 b)

/-- `/repo/dash7/src/network/mod.rs:53-73` (derived writer; no id is written). -/
def NlsState.write : NlsState → W
  | .none => .ok []
  | .aesCtr b => W.list W.u8 b.toList
  | .aesCbcMac128 b => W.list W.u8 b.toList
  | .aesCbcMac64 b => W.list W.u8 b.toList
  | .aesCbcMac32 b => W.list W.u8 b.toList
  | .aesCcm128 b => W.list W.u8 b.toList
  | .aesCcm64 b => W.list W.u8 b.toList
  | .aesCcm32 b => W.list W.u8 b.toList

/-- `/repo/dash7/src/network/mod.rs:75-91` (`AddressType`). -/
inductive AddressType | nbId | noId | uId | vId
  deriving DecidableEq, Repr

/-- `/repo/dash7/src/network/mod.rs:79-90` (ids). -/
def AddressType.id : AddressType → U8
  | .nbId => 0 | .noId => 1 | .uId => 2 | .vId => 3

/-- `/repo/dash7/src/network/mod.rs:79-90` (ids, reading). -/
def AddressType.ofId (i : U8) : Option AddressType :=
  match i.toNat with
  | 0 => some .nbId | 1 => some .noId | 2 => some .uId | 3 => some .vId | _ => none

/-- `/repo/dash7/src/network/mod.rs:75-76` (derived reader, 2 bits). -/
def AddressType.read : P AddressType := P.enum 2 ofId
/-- `/repo/dash7/src/network/mod.rs:75-76` (derived writer, 2 bits). -/
def AddressType.write (t : AddressType) : W := W.uint 2 t.id

/-- `/repo/dash7/src/network/mod.rs:93-109` (`Address`). -/
inductive Address
  | nbId (n : VarInt)
  | noId
  | uId (a : U64)
  | vId (a : U16)
  deriving DecidableEq, Repr

/-- `/repo/dash7/src/network/mod.rs:97-108` (`deku_id` of `Address`). -/
def Address.type : Address → AddressType
  | .nbId _ => .nbId
  | .noId => .noId
  | .uId _ => .uId
  | .vId _ => .vId

/-- `/repo/dash7/src/network/mod.rs:93-109` (derived reader, variant chosen by the context). -/
def Address.read : AddressType → P Address
  | .nbId => do let n ← VarInt.read; P.pure (.nbId n)
  | .noId => P.pure .noId
  | .uId => do let a ← P.uint 64 64; P.pure (.uId a)
  | .vId => do let a ← P.uint 16 16; P.pure (.vId a)

/-- `/repo/dash7/src/network/mod.rs:93-109` (derived writer; no id is written). -/
def Address.write : Address → W
  | .nbId n => n.write
  | .noId => .ok []
  | .uId a => W.uint 64 a
  | .vId a => W.uint 16 a

/-! ## `network/addressee.rs` -/

/-- `/repo/dash7/src/network/addressee.rs:10-35` (`Addressee`). `groupCondition` and `useVid` exist in
the wizzilab build only; other builds are modelled with both at their default. -/
structure Addressee where
  groupCondition : GroupCondition
  addressType : AddressType
  useVid : Bool
  nlsMethod : NlsMethod
  accessClass : AccessClass
  address : Address
  nlsState : NlsState
  deriving DecidableEq, Repr

/-- `/repo/dash7/src/network/addressee.rs:37-67` (`Addressee::new`, both builds; `useVid` and
`groupCondition` are arguments in the wizzilab build only). -/
def Addressee.new (useVid : Bool) (groupCondition : GroupCondition) (address : Address)
    (nlsState : NlsState) (accessClass : AccessClass) : Addressee :=
  { groupCondition, addressType := address.type, useVid, nlsMethod := nlsState.method,
    accessClass, address, nlsState }

/-- `/repo/dash7/src/network/addressee.rs:17,25` (derived `update`). -/
def Addressee.update (a : Addressee) : Addressee :=
  { a with addressType := a.address.type, nlsMethod := a.nlsState.method }

/-- `/repo/dash7/src/network/addressee.rs:12-23`: first byte, wizzilab build. -/
def Addressee.readCtlWizzilab (cfg : Cfg) : P (GroupCondition × AddressType × Bool × NlsMethod) := do
  let g ← GroupCondition.read
  let t ← AddressType.read
  let v ← P.flag
  let m ← NlsMethod.read cfg
  P.pure (g, t, v, m)

/-- `/repo/dash7/src/network/addressee.rs:16-26`: first byte, other builds (two padding bits). -/
def Addressee.readCtl (cfg : Cfg) : P (GroupCondition × AddressType × Bool × NlsMethod) := do
  P.pad 2
  let t ← AddressType.read
  let m ← NlsMethod.read cfg
  P.pure (.any, t, false, m)

/-- `/repo/dash7/src/network/addressee.rs:10-35` (derived reader). -/
def Addressee.read (cfg : Cfg) : P Addressee := do
  let (g, t, v, m) ← (match cfg.variant with
    | .wizzilab => readCtlWizzilab cfg
    | _ => readCtl cfg)
  let ac ← AccessClass.read
  let a ← Address.read t
  let s ← NlsState.read m
  P.pure ⟨g, t, v, m, ac, a, s⟩

/-- `/repo/dash7/src/network/addressee.rs:10-26` (derived writer: first byte). -/
def Addressee.writeCtl (cfg : Cfg) (a : Addressee) : W :=
  match cfg.variant with
  | .wizzilab => W.seq [a.groupCondition.write, a.addressType.write, W.flag a.useVid,
      a.nlsMethod.write cfg]
  | _ => W.seq [W.pad 2, a.addressType.write, a.nlsMethod.write cfg]

/-- `/repo/dash7/src/network/addressee.rs:10-35` (derived writer). -/
def Addressee.write (cfg : Cfg) (a : Addressee) : W :=
  W.seq [a.writeCtl cfg, a.accessClass.write, a.address.write, a.nlsState.write]

end Dash7
