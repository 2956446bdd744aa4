import Verif.Model.Types

/-!
# `dash7/src/physical/mod.rs`
-/

namespace Dash7

/-- `/repo/dash7/src/physical/mod.rs:3-9` (`Bandwidth`). -/
inductive Bandwidth | khz200 | khz25
  deriving DecidableEq, Repr

/-- `/repo/dash7/src/physical/mod.rs:7-8` (ids). -/
def Bandwidth.id : Bandwidth → U8
  | .khz200 => 0 | .khz25 => 1

/-- `/repo/dash7/src/physical/mod.rs:7-8` (ids, reading). -/
def Bandwidth.ofId (i : U8) : Option Bandwidth :=
  match i.toNat with
  | 0 => some .khz200 | 1 => some .khz25 | _ => none

/-- `/repo/dash7/src/physical/mod.rs:3-4` (derived reader, 2 bits). -/
def Bandwidth.read : P Bandwidth := P.enum 2 ofId
/-- `/repo/dash7/src/physical/mod.rs:3-4` (derived writer, 2 bits). -/
def Bandwidth.write (b : Bandwidth) : W := W.uint 2 b.id

/-- `/repo/dash7/src/physical/mod.rs:12-21` (`ChannelBand`). -/
inductive ChannelBand | rfu0 | rfu1 | band433 | band868 | band915
  deriving DecidableEq, Repr

/-- `/repo/dash7/src/physical/mod.rs:16-20` (ids). -/
def ChannelBand.id : ChannelBand → U8
  | .rfu0 => 0 | .rfu1 => 1 | .band433 => 2 | .band868 => 3 | .band915 => 4

/-- `/repo/dash7/src/physical/mod.rs:16-20` (ids, reading). -/
def ChannelBand.ofId (i : U8) : Option ChannelBand :=
  match i.toNat with
  | 0 => some .rfu0 | 1 => some .rfu1 | 2 => some .band433 | 3 => some .band868
  | 4 => some .band915 | _ => none

/-- `/repo/dash7/src/physical/mod.rs:12-13` (derived reader, 3 bits). -/
def ChannelBand.read : P ChannelBand := P.enum 3 ofId
/-- `/repo/dash7/src/physical/mod.rs:12-13` (derived writer, 3 bits). -/
def ChannelBand.write (b : ChannelBand) : W := W.uint 3 b.id

/-- `/repo/dash7/src/physical/mod.rs:23-31` (`ChannelClass`). -/
inductive ChannelClass | loRate | lora | normalRate | hiRate
  deriving DecidableEq, Repr

/-- `/repo/dash7/src/physical/mod.rs:27-30` (ids). -/
def ChannelClass.id : ChannelClass → U8
  | .loRate => 0 | .lora => 1 | .normalRate => 2 | .hiRate => 3

/-- `/repo/dash7/src/physical/mod.rs:27-30` (ids, reading). -/
def ChannelClass.ofId (i : U8) : Option ChannelClass :=
  match i.toNat with
  | 0 => some .loRate | 1 => some .lora | 2 => some .normalRate | 3 => some .hiRate | _ => none

/-- `/repo/dash7/src/physical/mod.rs:23-24` (derived reader, 2 bits). -/
def ChannelClass.read : P ChannelClass := P.enum 2 ofId
/-- `/repo/dash7/src/physical/mod.rs:23-24` (derived writer, 2 bits). -/
def ChannelClass.write (b : ChannelClass) : W := W.uint 2 b.id

/-- `/repo/dash7/src/physical/mod.rs:33-41` (`ChannelCoding`). -/
inductive ChannelCoding | pn9 | rfu | fecPn9 | cw
  deriving DecidableEq, Repr

/-- `/repo/dash7/src/physical/mod.rs:37-40` (ids). -/
def ChannelCoding.id : ChannelCoding → U8
  | .pn9 => 0 | .rfu => 1 | .fecPn9 => 2 | .cw => 3

/-- `/repo/dash7/src/physical/mod.rs:37-40` (ids, reading). -/
def ChannelCoding.ofId (i : U8) : Option ChannelCoding :=
  match i.toNat with
  | 0 => some .pn9 | 1 => some .rfu | 2 => some .fecPn9 | 3 => some .cw | _ => none

/-- `/repo/dash7/src/physical/mod.rs:33-34` (derived reader, 2 bits). -/
def ChannelCoding.read : P ChannelCoding := P.enum 2 ofId
/-- `/repo/dash7/src/physical/mod.rs:33-34` (derived writer, 2 bits). -/
def ChannelCoding.write (b : ChannelCoding) : W := W.uint 2 b.id

/-- `/repo/dash7/src/physical/mod.rs:43-55` (`CsmaCaMode`). -/
inductive CsmaCaMode | unc | aind | raind | rigd
  deriving DecidableEq, Repr

/-- `/repo/dash7/src/physical/mod.rs:47-54` (ids). -/
def CsmaCaMode.id : CsmaCaMode → U8
  | .unc => 0 | .aind => 1 | .raind => 2 | .rigd => 3

/-- `/repo/dash7/src/physical/mod.rs:47-54` (ids, reading). -/
def CsmaCaMode.ofId (i : U8) : Option CsmaCaMode :=
  match i.toNat with
  | 0 => some .unc | 1 => some .aind | 2 => some .raind | 3 => some .rigd | _ => none

/-- `/repo/dash7/src/physical/mod.rs:43-44` (derived reader, 4 bits). -/
def CsmaCaMode.read : P CsmaCaMode := P.enum 4 ofId
/-- `/repo/dash7/src/physical/mod.rs:43-44` (derived writer, 4 bits). -/
def CsmaCaMode.write (b : CsmaCaMode) : W := W.uint 4 b.id

/-- `/repo/dash7/src/physical/mod.rs:79-85` (`ChannelHeader`). -/
structure ChannelHeader where
  band : ChannelBand
  cls : ChannelClass
  coding : ChannelCoding
  deriving DecidableEq, Repr

/-- `/repo/dash7/src/physical/mod.rs:87-99` (`ChannelHeader::new`). -/
def ChannelHeader.new (band : ChannelBand) (cls : ChannelClass) (coding : ChannelCoding) : ChannelHeader :=
  ⟨band, cls, coding⟩

/-- `/repo/dash7/src/physical/mod.rs:79-85` (derived reader; one padding bit first). -/
def ChannelHeader.read : P ChannelHeader := do
  P.pad 1
  let band ← ChannelBand.read
  let cls ← ChannelClass.read
  let coding ← ChannelCoding.read
  P.pure ⟨band, cls, coding⟩

/-- `/repo/dash7/src/physical/mod.rs:79-85` (derived writer). -/
def ChannelHeader.write (h : ChannelHeader) : W :=
  W.seq [W.pad 1, h.band.write, h.cls.write, h.coding.write]

/-- `/repo/dash7/src/physical/mod.rs:101-106` (`Channel`). -/
structure Channel where
  header : ChannelHeader
  index : U16
  deriving DecidableEq, Repr

/-- `/repo/dash7/src/physical/mod.rs:101-106` (derived reader). -/
def Channel.read : P Channel := do
  let header ← ChannelHeader.read
  let index ← P.uint 16 16
  P.pure ⟨header, index⟩

/-- `/repo/dash7/src/physical/mod.rs:101-106` (derived writer). -/
def Channel.write (c : Channel) : W := W.seq [c.header.write, W.uint 16 c.index]

/-- `/repo/dash7/src/physical/mod.rs:108-116` (`ChannelStatusIdentifier`). -/
structure ChannelStatusIdentifier where
  band : ChannelBand
  bandwidth : Bandwidth
  index : U16
  deriving DecidableEq, Repr

/-- `/repo/dash7/src/physical/mod.rs:108-116` (derived reader; index has 11 bits). -/
def ChannelStatusIdentifier.read : P ChannelStatusIdentifier := do
  let band ← ChannelBand.read
  let bandwidth ← Bandwidth.read
  let index ← P.uint 16 11
  P.pure ⟨band, bandwidth, index⟩

/-- `/repo/dash7/src/physical/mod.rs:108-116` (derived writer). -/
def ChannelStatusIdentifier.write (c : ChannelStatusIdentifier) : W :=
  W.seq [c.band.write, c.bandwidth.write, W.uint 11 c.index]

/-- `/repo/dash7/src/physical/mod.rs:118-126` (`SubBand`); `eirp` is an `i8`, kept as its bits. -/
structure SubBand where
  indexStart : U16
  indexEnd : U16
  eirp : U8
  cca : U8
  duty : U8
  deriving DecidableEq, Repr

/-- `/repo/dash7/src/physical/mod.rs:118-126` (derived reader, big-endian). -/
def SubBand.read : P SubBand := do
  let indexStart ← P.uint 16 16
  let indexEnd ← P.uint 16 16
  let eirp ← P.u8
  let cca ← P.u8
  let duty ← P.u8
  P.pure ⟨indexStart, indexEnd, eirp, cca, duty⟩

/-- `/repo/dash7/src/physical/mod.rs:118-126` (derived writer). -/
def SubBand.write (b : SubBand) : W :=
  W.seq [W.uint 16 b.indexStart, W.uint 16 b.indexEnd, W.u8 b.eirp, W.u8 b.cca, W.u8 b.duty]

/-- `/repo/dash7/src/physical/mod.rs:128-132` (`ChannelStatus`). -/
structure ChannelStatus where
  identifier : ChannelStatusIdentifier
  noiseFloor : U8
  deriving DecidableEq, Repr

/-- `/repo/dash7/src/physical/mod.rs:128-132` (derived reader). -/
def ChannelStatus.read : P ChannelStatus := do
  let identifier ← ChannelStatusIdentifier.read
  let noiseFloor ← P.u8
  P.pure ⟨identifier, noiseFloor⟩

/-- `/repo/dash7/src/physical/mod.rs:128-132` (derived writer). -/
def ChannelStatus.write (c : ChannelStatus) : W :=
  W.seq [c.identifier.write, W.u8 c.noiseFloor]

end Dash7
