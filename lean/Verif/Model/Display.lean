import Verif.Model.Session

/-!
# The texts of an interface status: `dash7/src/session/mod.rs`, `Display`

`format!("{:?}", x)` of a derived `Debug` writes a struct as `Name { field: text, … }`, a variant with
a payload as `Name(text)`, a unit variant as its name, integers in decimal, and arrays and vectors as
`[a, b]`. The names and fields of the shown types follow the cited declarations.
-/

namespace Dash7
namespace Debug

/-- `core::fmt` (`Debug` of the unsigned integers, without flags): decimal digits; used by
`/repo/dash7/src/session/mod.rs:216-237`. -/
def nat (n : Nat) : String := toString n

/-- `core::fmt` (`Debug` of `bool`); used by `/repo/dash7/src/session/mod.rs:223-226`. -/
def bool : Bool → String
  | true => "true"
  | false => "false"

/-- `core::fmt` (`Debug` of arrays and vectors, the elements after the first); used by
`/repo/dash7/src/session/mod.rs:171`. -/
def more : List U8 → String
  | [] => ""
  | b :: bs => ", " ++ nat b.toNat ++ more bs

/-- `core::fmt` (`Debug` of arrays and vectors); used by `/repo/dash7/src/session/mod.rs:171`. -/
def bytes : List U8 → String
  | [] => "[]"
  | b :: bs => "[" ++ nat b.toNat ++ more bs ++ "]"

/-- `core::fmt` (derived `Debug` of a struct, the fields after the first); used by
`/repo/dash7/src/session/mod.rs:216-237`. -/
def moreFields : List (String × String) → String
  | [] => ""
  | (n, t) :: fs => ", " ++ n ++ ": " ++ t ++ moreFields fs

/-- `core::fmt` (derived `Debug` of a struct); used by `/repo/dash7/src/session/mod.rs:216-237`. -/
def struct (name : String) : List (String × String) → String
  | [] => name
  | (n, t) :: fs => name ++ " { " ++ n ++ ": " ++ t ++ moreFields fs ++ " }"

/-- `/repo/dash7/src/physical/mod.rs:12-21` (derived `Debug`). -/
def band : ChannelBand → String
  | .rfu0 => "Rfu0" | .rfu1 => "Rfu1" | .band433 => "Band433" | .band868 => "Band868"
  | .band915 => "Band915"

/-- `/repo/dash7/src/physical/mod.rs:23-31` (derived `Debug`). -/
def cls : ChannelClass → String
  | .loRate => "LoRate" | .lora => "Lora" | .normalRate => "NormalRate" | .hiRate => "HiRate"

/-- `/repo/dash7/src/physical/mod.rs:33-41` (derived `Debug`). -/
def coding : ChannelCoding → String
  | .pn9 => "Pn9" | .rfu => "Rfu" | .fecPn9 => "FecPn9" | .cw => "Cw"

/-- `/repo/dash7/src/physical/mod.rs:79-85` (derived `Debug`). -/
def channelHeader (h : ChannelHeader) : String :=
  struct "ChannelHeader" [("channel_band", band h.band), ("channel_class", cls h.cls),
    ("channel_coding", coding h.coding)]

/-- `/repo/dash7/src/physical/mod.rs:101-106` (derived `Debug`). -/
def channel (c : Channel) : String :=
  struct "Channel" [("header", channelHeader c.header), ("index", nat c.index.toNat)]

/-- `/repo/dash7/src/types.rs:46-56` (derived `Debug`). -/
def varInt (v : VarInt) : String :=
  struct "VarInt" [("value", nat v.value.toNat), ("ceil", bool v.ceil)]

/-- `/repo/dash7/src/transport/mod.rs:5-21` (derived `Debug`). -/
def groupCondition : GroupCondition → String
  | .any => "Any" | .notEqual => "NotEqual" | .equal => "Equal" | .greaterThan => "GreaterThan"

/-- `/repo/dash7/src/network/mod.rs:75-91` (derived `Debug`). -/
def addressType : AddressType → String
  | .nbId => "NbId" | .noId => "NoId" | .uId => "UId" | .vId => "VId"

/-- `/repo/dash7/src/network/mod.rs:13-50` (derived `Debug`). -/
def nlsMethod : NlsMethod → String
  | .none => "None" | .aesCtr => "AesCtr" | .aesCbcMac128 => "AesCbcMac128"
  | .aesCbcMac64 => "AesCbcMac64" | .aesCbcMac32 => "AesCbcMac32" | .aesCcm128 => "AesCcm128"
  | .aesCcm64 => "AesCcm64" | .aesCcm32 => "AesCcm32"

/-- `/repo/dash7/src/link/mod.rs:22-28` (derived `Debug`). -/
def accessClass (a : AccessClass) : String :=
  struct "AccessClass" [("specifier", nat a.specifier.toNat), ("mask", nat a.mask.toNat)]

/-- `/repo/dash7/src/network/mod.rs:93-109` (derived `Debug`). -/
def address : Address → String
  | .nbId n => "NbId" ++ ("(" ++ varInt n ++ ")")
  | .noId => "NoId" ++ ""
  | .uId a => "UId" ++ ("(" ++ nat a.toNat ++ ")")
  | .vId a => "VId" ++ ("(" ++ nat a.toNat ++ ")")

/-- `/repo/dash7/src/network/mod.rs:52-72` (derived `Debug`). -/
def nlsState : NlsState → String
  | .none => "None" ++ ""
  | .aesCtr b => "AesCtr" ++ ("(" ++ bytes b.toList ++ ")")
  | .aesCbcMac128 b => "AesCbcMac128" ++ ("(" ++ bytes b.toList ++ ")")
  | .aesCbcMac64 b => "AesCbcMac64" ++ ("(" ++ bytes b.toList ++ ")")
  | .aesCbcMac32 b => "AesCbcMac32" ++ ("(" ++ bytes b.toList ++ ")")
  | .aesCcm128 b => "AesCcm128" ++ ("(" ++ bytes b.toList ++ ")")
  | .aesCcm64 b => "AesCcm64" ++ ("(" ++ bytes b.toList ++ ")")
  | .aesCcm32 b => "AesCcm32" ++ ("(" ++ bytes b.toList ++ ")")

/-- `/repo/dash7/src/network/addressee.rs:10-34` (derived `Debug`; the group condition and the VID flag
are fields of the wizzilab build only). -/
def addressee (cfg : Cfg) (a : Addressee) : String :=
  match cfg.variant with
  | .wizzilab => struct "Addressee"
      [("group_condition", groupCondition a.groupCondition), ("address_type", addressType a.addressType),
       ("use_vid", bool a.useVid), ("nls_method", nlsMethod a.nlsMethod),
       ("access_class", accessClass a.accessClass), ("address", address a.address),
       ("nls_state", nlsState a.nlsState)]
  | _ => struct "Addressee"
      [("address_type", addressType a.addressType), ("nls_method", nlsMethod a.nlsMethod),
       ("access_class", accessClass a.accessClass), ("address", address a.address),
       ("nls_state", nlsState a.nlsState)]

/-- `/repo/dash7/src/session/mod.rs:13-34` (derived `Debug`). -/
def interfaceType : InterfaceType → String
  | .host => "Host" | .serial => "Serial" | .loRaWanABP => "LoRaWanABP"
  | .loRaWanOTAA => "LoRaWanOTAA" | .dash7 => "Dash7" | .unknown => "Unknown"

end Debug

/-- `/repo/dash7/src/session/mod.rs:215-237` (`Display`), one `write_str` after the other. -/
def Dash7InterfaceStatus.display (cfg : Cfg) (s : Dash7InterfaceStatus) : String :=
  "Dash7InterfaceStatus { " ++
  ("channel: " ++ Debug.channel s.channel ++ ", ") ++
  ("rx_level: " ++ Debug.nat s.rxLevel.toNat ++ ", ") ++
  ("link_budget: " ++ Debug.nat s.linkBudget.toNat ++ ", ") ++
  ("target_rx_level: " ++ Debug.nat s.targetRxLevel.toNat ++ ", ") ++
  ("nls: " ++ Debug.bool s.nls ++ ", ") ++
  ("missed: " ++ Debug.bool s.missed ++ ", ") ++
  ("retry: " ++ Debug.bool s.retry ++ ", ") ++
  ("unicast: " ++ Debug.bool s.unicast ++ ", ") ++
  ("fifo_token: " ++ Debug.nat s.fifoToken.toNat ++ ", ") ++
  ("sequence_number: " ++ Debug.nat s.sequenceNumber.toNat ++ ", ") ++
  ("response_timeout: " ++ Debug.nat s.responseTimeout.value.toNat ++ ", ") ++
  ("addressee: " ++ Debug.addressee cfg s.addressee ++ ", ") ++
  " }"

/-- `/repo/dash7/src/session/mod.rs:166-180` (`Display`). `deku_id` of the two unit variants is
`Ok`. -/
def InterfaceStatus.display (cfg : Cfg) : InterfaceStatus → String
  | .dash7 s => s.display cfg
  | .other b => "OtherInterfaceStatus{ " ++ Debug.bytes b ++ " }"
  | s => Debug.interfaceType s.type ++ "InterfaceStatus{}"

end Dash7
